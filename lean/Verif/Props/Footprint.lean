import Verif.Proof.Misuse
import Verif.Proof.Vectors
import Verif.Props.CLI
import Verif.Props.CShakeAny

/-!
# C60: the memory an object takes does not grow with the message

Generated by tools/gen_footprint.py. The classes whose objects own no memory besides themselves: their carry-over buffer,
the only part whose use depends on the message, never holds a whole block (BLAKE2: never more than one). CRC-32 and FNV
have no buffer. `Heap`, `Growth` and `runH` (Model/Vectors.lean) account for the vectors of SHA-3 and SHAKE.
-/

namespace Verif.API

/-- Whatever is called in whatever order, at most `k` bytes of the message are kept. -/
def Keeps {N : Nat} {S : Type} (A : API (Obj N S)) (k : Nat) : Prop :=
  ∀ ops, AnyOrder ops → ∃ o, A.run A.fresh ops = .ok o ∧ o.buffer.size ≤ k

end Verif.API

namespace Verif.Props
open Model Proof.Misuse

private theorem room {N : Nat} {S : Type} {A : API (Obj N S)} {k : Nat} (t : Total A)
    (hI : ∀ o, t.I o → ∃ l, o.buffer.Holds l ∧ l.length < k + 1) : A.Keeps k := by
  intro ops h
  obtain ⟨o, e, i⟩ := t.run ops A.fresh h t.fresh
  obtain ⟨l, hl, hlt⟩ := hI o i
  exact ⟨o, e, by rw [hl.size_eq]; omega⟩

private theorem fits {N : Nat} {S : Type} {A : API (Obj N S)} (t : Total A) (hI : ∀ o, t.I o → Fits o) : A.Keeps N := by
  intro ops h
  obtain ⟨o, e, i⟩ := t.run ops A.fresh h t.fresh
  obtain ⟨l, hl⟩ := hI o i
  exact ⟨o, e, by rw [hl.size_eq]; exact hl.le⟩

theorem C60_SHA1 : SHA1.SHA1.Keeps 63 := room (mdTotal (by decide) _ writesBE64 _ _ _) fun _ i => i.1
theorem C60_SHA2_224 : SHA2.SHA2_224.Keeps 63 := room (mdTotal (by decide) _ writesBE64 _ _ _) fun _ i => i.1
theorem C60_SHA2_256 : SHA2.SHA2_256.Keeps 63 := room (mdTotal (by decide) _ writesBE64 _ _ _) fun _ i => i.1
theorem C60_SHA2_384 : SHA2.SHA2_384.Keeps 127 := room (mdTotal (by decide) _ writesBE128 _ _ _) fun _ i => i.1
theorem C60_SHA2_512 : SHA2.SHA2_512.Keeps 127 := room (mdTotal (by decide) _ writesBE128 _ _ _) fun _ i => i.1
theorem C60_SHA2_512_256 : SHA2.SHA2_512_256.Keeps 127 := room (mdTotal (by decide) _ writesBE128 _ _ _) fun _ i => i.1
theorem C60_SHA2_512_224 : SHA2.SHA2_512_224.Keeps 127 := room (mdTotal (by decide) _ writesBE128 _ _ _) fun _ i => i.1
theorem C60_MD4 : MD4.MD4.Keeps 63 := room (mdTotal (by decide) _ writesLE64 _ _ _) fun _ i => i.1
theorem C60_MD5 : MD5.MD5.Keeps 63 := room (mdTotal (by decide) _ writesLE64 _ _ _) fun _ i => i.1
theorem C60_RIPEMD_128 : RIPEMD.RIPEMD_128.Keeps 63 := room (mdTotal (by decide) _ writesLE64 _ _ _) fun _ i => i.1
theorem C60_RIPEMD_160 : RIPEMD.RIPEMD_160.Keeps 63 := room (mdTotal (by decide) _ writesLE64 _ _ _) fun _ i => i.1
theorem C60_RIPEMD_256 : RIPEMD.RIPEMD_256.Keeps 63 := room (mdTotal (by decide) _ writesLE64 _ _ _) fun _ i => i.1
theorem C60_RIPEMD_320 : RIPEMD.RIPEMD_320.Keeps 63 := room (mdTotal (by decide) _ writesLE64 _ _ _) fun _ i => i.1
theorem C60_HAS_160 : HAS160.HAS_160.Keeps 63 := room (mdTotal (by decide) _ writesLE64 _ _ _) fun _ i => i.1
theorem C60_SM3 : SM3.SM3.Keeps 63 := room (mdTotal (by decide) _ writesBE64 _ _ _) fun _ i => i.1
theorem C60_Tiger1_192 : Tiger.Tiger1_192.Keeps 63 := room (mdTotal (by decide) _ writesLE64 _ _ _) fun _ i => i.1
theorem C60_Tiger2_192 : Tiger.Tiger2_192.Keeps 63 := room (mdTotal (by decide) _ writesLE64 _ _ _) fun _ i => i.1
theorem C60_Whirlpool : Whirlpool.Whirlpool.Keeps 63 := room (mdTotal (by decide) _ writesBE128_32 _ _ _) fun _ i => i.1
theorem C60_SHA3_224 : SHA3.SHA3_224.Keeps 143 := room (sha3Total 144 0x06 28) fun _ i => i.1
theorem C60_SHA3_256 : SHA3.SHA3_256.Keeps 135 := room (sha3Total 136 0x06 32) fun _ i => i.1
theorem C60_SHA3_384 : SHA3.SHA3_384.Keeps 103 := room (sha3Total 104 0x06 48) fun _ i => i.1
theorem C60_SHA3_512 : SHA3.SHA3_512.Keeps 71 := room (sha3Total 72 0x06 64) fun _ i => i.1
theorem C60_SHAKE_128 (d : Nat) : (SHA3.SHAKE_128 d).Keeps 167 := room (sha3Total 168 0x1F d) fun _ i => i.1
theorem C60_SHAKE_256 (d : Nat) : (SHA3.SHAKE_256 d).Keeps 135 := room (sha3Total 136 0x1F d) fun _ i => i.1
theorem C60_MD2 : MD2.MD2.Keeps 15 := room (md2Total) fun _ i => i.1
theorem C60_Blake1_224 : BLAKE.Blake1_224.Keeps 63 := room (blake32Total _ _ _ _ _) fun _ i => i.1
theorem C60_Blake1_256 : BLAKE.Blake1_256.Keeps 63 := room (blake32Total _ _ _ _ _) fun _ i => i.1
theorem C60_Blake1_384 : BLAKE.Blake1_384.Keeps 127 := room (blake64Total _ _ _ _ _) fun _ i => i.1
theorem C60_Blake1_512 : BLAKE.Blake1_512.Keeps 127 := room (blake64Total _ _ _ _ _) fun _ i => i.1
theorem C60_Blake2 : BLAKE2.Blake2.Keeps 128 := fits (blake2Total (by decide) BLAKE2.cfg2 8 64) fun _ i => i
theorem C60_Blake2s : BLAKE2.Blake2s.Keeps 64 := fits (blake2Total (by decide) BLAKE2.cfg2s 4 32) fun _ i => i
theorem C60_SipHash (C D : Nat) (key : Block 16) : (SipHash.SipHashCD C D key).Keeps 7 := room (sipTotal C D key) fun _ i => i.1
theorem C60_Tiger_any (V D : Nat) : (Tiger.Tiger V D).Keeps 63 := room (mdTotal (by decide) _ writesLE64 _ _ _) fun _ i => i.1

/-! ### SHA-3, SHAKE and cSHAKE: the memory of the vectors -/

section
open SHA3
variable (R : Nat) [hR : RateOK R]

/-- Calls on a SHA-3 or SHAKE object (rate `R` bytes, padding byte `P`, requested length `d`), in whatever order and
however long the message: the digest kept is empty or has the requested length, its vector has room for it but never room for more than
`2 (d + R)` bytes, and at no moment are more than `3 (d + R) + 200` bytes allocated. The object is the one of the model
without memory. -/
theorem C60_Keccak (P : Byte) (g : Growth) (d : Nat) (ops : List Op) :
    ∃ o h, runH R P g d (Keccak R P d).fresh (heapNew g d) ops = .ok (o, h) ∧
      (Keccak R P d).run (Keccak R P d).fresh ops = .ok o ∧ (o.chain.final = [] ∨ o.chain.final.length = d) ∧
      o.chain.final.length ≤ h.cap ∧ h.cap ≤ 2 * (d + R) ∧ h.peak ≤ 3 * (d + R) + 200 := by
  obtain ⟨o, h, e, e', k, c, w⟩ := Proof.Vectors.runH_any g P d ops _ (heapNew g d) (Proof.Vectors.ok_fresh (R := R) P d)
    (Nat.zero_le _) (Proof.Vectors.within_new g d)
  exact ⟨o, h, e, e', k.2.imp List.length_eq_zero_iff.1 id, c, w⟩

/-- An object that was used once and is reset and used again, according to the rules, needs no more memory than the
first time: the vector is not reallocated. -/
theorem C60_Keccak_reuse (P : Byte) (g : Growth) (d : Nat) (before after : List Op)
    (hl : Legal (before ++ .finalize :: after)) :
    ∃ o h o', runH R P g d (Keccak R P d).fresh (heapNew g d) (before ++ [.finalize]) = .ok (o, h) ∧
      runH R P g d o h after = .ok (o', h) := Proof.Vectors.reuse g P d before after hl

/-- What a cSHAKE object that a constructor returned keeps besides itself is one such object. Whatever is called on it,
its memory stays within the same bounds, whatever the name, the customization and the message are. -/
theorem C60_CSHAKE (h8 : R % 8 = 0) (nb : Nat → Nat) (name custom : List Byte) (hn : name.length < 2 ^ 64)
    (hc : custom.length < 2 ^ 64) (d : Nat) (o : CShake.CShake R) (e : CShake.construct nb R d name custom = .ok o) (g : Growth) :
    ∃ c x, o = Proof.CShake.mk c ⟨d, x⟩ ∧ ∀ ops : List Op, ∃ y h,
      runH R (Proof.CShake.padOf c) g d x (heapNew g d) ops = .ok (y, h) ∧
      CShake.run o ops = .ok (Proof.CShake.mk c ⟨d, y⟩) ∧ (y.chain.final = [] ∨ y.chain.final.length = d) ∧
      y.buffer.size < R ∧ y.chain.final.length ≤ h.cap ∧ h.cap ≤ 2 * (d + R) ∧ h.peak ≤ 3 * (d + R) + 200 := by
  obtain ⟨c, pre, ⟨x, rfl, hx⟩, _⟩ := Proof.CShakeAny.construct_ok h8 nb name custom hn hc d o e
  have h0 : x.chain.final = [] := by
    have := hx.1
    rw [this]
    rfl
  have hx' : Proof.Vectors.OK d x :=
    ⟨⟨_, hx.2, restPart_lt R _ hR.pos⟩, .inl (by rw [h0]; rfl)⟩
  refine ⟨c, x, rfl, fun ops => ?_⟩
  obtain ⟨y, h, e1, e2, k, cc, w⟩ := Proof.Vectors.runH_any g (Proof.CShake.padOf c) d ops x (heapNew g d) hx'
    (by rw [h0]; exact Nat.zero_le _) (Proof.Vectors.within_new g d)
  refine ⟨y, h, e1, by rw [Proof.CShake.run_mk, e2]; rfl, k.2.imp List.length_eq_zero_iff.1 id, ?_, cc, w⟩
  obtain ⟨l, hl, hlt⟩ := k.1
  rw [hl.size_eq]
  exact hlt

/-- TupleHash keeps a cSHAKE object: whatever tuples are hashed, no more than the same number of bytes are kept. -/
theorem C60_TupleHash (h8 : R % 8 = 0) (nb : Nat → Nat) (custom : List Byte) (hc : custom.length < 2 ^ 64) (d : Nat)
    (o : CShake.TupleHash R) (e : CShake.tupleConstruct nb R d custom = .ok o) (ops : List Op) (o' : CShake.TupleHash R)
    (e' : CShake.tupleRun nb o ops = .ok o') :
    ∃ c y, o'.cshake = Proof.CShake.mk c ⟨d, y⟩ ∧ (y.chain.final = [] ∨ y.chain.final.length = d) ∧ y.buffer.size < R := by
  obtain ⟨s, es, rfl⟩ := tuple_ok R nb custom d o e
  obtain ⟨cs, _, hrun, _⟩ := Proof.CShakeAny.tuple_calls nb d ops s o' e'
  obtain ⟨c, x, rfl, h⟩ := C60_CSHAKE R h8 nb _ custom (by decide +kernel) hc d s es ⟨fun _ n => n, fun _ _ => Nat.le_refl _,
    fun _ _ => Nat.le_max_left _ _⟩
  obtain ⟨y, _, _, r, k, b, _⟩ := h cs
  rw [hrun] at r
  exact ⟨c, y, Except.ok.inj r, k, b⟩

end

/-! ### The command-line tool -/

section
open CLI

/-- For every option but `-tuple-hash-128` and `-tuple-hash-256` the tool hands the file over in pieces of at most 1 MiB,
however large the file is: it needs one buffer of that size and the object. -/
theorem C60_tool_pieces (w : World) (file : List Byte) :
    ∃ ps : List (List Byte), ps.flatten = (w.source file).delivered ∧ (∀ p ∈ ps, p.length ≤ 1048576) ∧
      ∀ {O : Type} (hash : Hasher O), readNPrint hash w file = (do
        let o ← ps.foldlM hash.addData hash.obj
        let o ← hash.finalize o
        return printLine (← hash.toString o) file) := by
  obtain ⟨ps, h1, h2, h3⟩ := Proof.CLI.loop_pieces w file
  refine ⟨ps, h1, h2, fun hash => ?_⟩
  unfold readNPrint
  rw [h3]

/-- This is false for TupleHash: the tool makes one call with the whole file, which it has in memory by then. -/
theorem C60_tool_tuple_actual {R : Nat} [SHA3.RateOK R] (nb : Nat → Nat) (hash : CShake.TupleHash R) (w : World) (file : List Byte) :
    readAllNPrint nb hash w file = (do
      let o ← CShake.nextData nb hash (w.source file).delivered
      let o ← CShake.tupleFinalize nb o
      return printLine (← CShake.tupleToString o) file) := by
  obtain ⟨ps, h1, _, h3⟩ := Proof.CLI.loop_pieces w file
  unfold readAllNPrint
  rw [h3]
  have key : ∀ (ps : List (List Byte)) (st : List Byte), ps.foldlM (fun buf piece => (.ok (buf ++ piece) : Except Fault _)) st =
      .ok (st ++ ps.flatten) := by
    intro ps
    induction ps with
    | nil => intro st; simp [pure, Except.pure]
    | cons p ps ih => intro st; simp only [List.foldlM_cons, bind, Except.bind, ih, List.flatten_cons, List.append_assoc]
  rw [key, List.nil_append, h1]
  rfl

end

/-! Two ways of growing: exactly, and by doubling. The theorems on concrete cases, and what the numbers are for them. -/
section Cases
open SHA3
private def exact : Growth := ⟨fun _ n => n, fun _ _ => Nat.le_refl _, fun _ _ => Nat.le_max_left _ _⟩
private def doubling : Growth := ⟨fun c n => max n (2 * c), fun _ _ => Nat.le_max_left _ _, fun _ _ => Nat.le_refl _⟩
example := C60_SHA1 [.add [1, 2], .finalize, .finalize, .add [3]] (fun d h => by simp at h; rcases h with rfl | rfl <;> decide)
example := C60_Blake2 [.add [1, 2], .finalize, .finalize, .add [3]] (fun d h => by simp at h; rcases h with rfl | rfl <;> decide)
example := C60_Keccak 168 0x1F doubling 500 [.add [1, 2], .finalize, .finalize, .add [3], .reset, .finalize]
/-- SHAKE128 with 200 bytes of output: reserved are 200 bytes, needed for a moment are 336. -/
example : (runH 168 0x1F exact 200 (Keccak 168 0x1F 200).fresh (heapNew exact 200) [.finalize]).toOption.map (·.2) =
    some ⟨336, 736⟩ := by decide +kernel
example : (runH 168 0x1F doubling 200 (Keccak 168 0x1F 200).fresh (heapNew doubling 200) [.finalize]).toOption.map (·.2) =
    some ⟨400, 800⟩ := by decide +kernel
/-- SHA3-256: a second `finalize()` against the rules makes the vector longer, a second use after `reset()` does not. -/
example : (runH 136 0x06 exact 32 (Keccak 136 0x06 32).fresh (heapNew exact 32) [.finalize]).toOption.map (·.2) =
    some ⟨136, 368⟩ := by decide +kernel
example : (runH 136 0x06 exact 32 (Keccak 136 0x06 32).fresh (heapNew exact 32) [.finalize, .finalize]).toOption.map (·.2) =
    some ⟨168, 504⟩ := by decide +kernel
example : (runH 136 0x06 exact 32 (Keccak 136 0x06 32).fresh (heapNew exact 32) [.finalize, .reset, .add [1], .finalize]).toOption.map
    (·.2) = some ⟨136, 368⟩ := by decide +kernel
example := C60_Keccak_reuse 168 0x1F doubling 500 [.add [1, 2]] [.reset, .add [3], .finalize, .reset, .finalize] (by decide)
example : ∃ o : CShake.CShake 168, CShake.construct Proof.CShake.countBytes 168 (32 : Nat) [] [1] = .ok o := by
  obtain ⟨o, e, _⟩ := C02_CSHAKE_partial Proof.CShake.countBytes Proof.CShake.countBytes_exact 168 rfl [] [1] (by decide)
    (by decide) 32
  have := C60_CSHAKE 168 rfl _ [] [1] (by decide) (by decide) 32 o e doubling
  exact ⟨o, e⟩
example : ∃ o o' : CShake.TupleHash 168, CShake.tupleConstruct Proof.CShake.countBytes 168 (32 : Nat) [1] = .ok o ∧
    CShake.tupleRun Proof.CShake.countBytes o ([[1], [2, 3]].map .add ++ [.finalize]) = .ok o' := by
  obtain ⟨o, o', e, e', _⟩ := tuple_run 168 rfl Proof.CShake.countBytes Proof.CShake.countBytes_exact [1] (by decide) 32
    (by decide) [[1], [2, 3]] (by decide)
  have := C60_TupleHash 168 rfl _ [1] (by decide) 32 o e _ o' e'
  exact ⟨o, o', e, e'⟩
example := C60_tool_pieces ⟨fun _ => .content [1, 2, 3], .content []⟩ [0x61]
end Cases

end Verif.Props
