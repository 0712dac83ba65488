import Verif.Proof.Alloc

/-!
# C50: running out of memory

What a caller sees who catches `std::bad_alloc`: Core/Alloc.lean. Where the code allocates: Model/Alloc.lean.
-/

namespace Verif.Props
open Model Model.SHA3 Model.CShake Proof.SHA3 Proof.Alloc Proof.CShake Proof.Misuse
open Spec

/-- `p` are the bytes by which a sponge of rate `r` bits pads a message `m` that is followed by the domain bits
`suf` (FIPS 202, 5.1 and B.2) -/
def PadsMessage (r : Nat) (suf : List Bool) (m p : List Byte) : Prop :=
  Keccak.bits (m ++ p) = Keccak.bits m ++ suf ++ Keccak.pad101 r (8 * m.length + suf.length)

/-- A `finalize()` that ran out of memory and is called again gives, without any error, the digest of another
message: the one that was added, its padding, and what the caller added in between. This is so whenever the
first `finalize()` threw, and it does throw if its first allocation fails. -/
def RetryHashesPadding {O : Type} (A : AllocAPI O) (r : Nat) (suf : List Bool) (spec : List Byte → List Byte) : Prop :=
  ∀ ops, Legal (ops ++ [.finalize]) → ∃ o, A.run A.fresh ops = .ok o ∧ ∀ f : Supply,
    (f.fails 0 = true → ∃ o', A.finalizeA f o = .ok (.threw o')) ∧
    ∀ o', A.finalizeA f o = .ok (.threw o') → ∃ p, PadsMessage r suf (message ops) p ∧
      ∀ pieces : List (List Byte), (∀ q ∈ pieces, q.length < 2 ^ 64) →
        (do A.toArray (← A.run o' (pieces.map Op.add ++ [Op.finalize]))) = .ok (spec (message ops ++ p ++ pieces.flatten))

/-- The same for a digest of `d` bytes, of which `k` blocks of `R` bytes had been written when memory ran out: these
stay, and the rest is taken from the digest of yet another message. -/
def RetryMixes {O : Type} (A : AllocAPI O) (R d : Nat) (suf : List Bool) (spec : List Byte → Nat → List Byte) : Prop :=
  ∀ ops, Legal (ops ++ [.finalize]) → ∃ o, A.run A.fresh ops = .ok o ∧ ∀ f : Supply,
    (f.fails 0 = true → ∃ o', A.finalizeA f o = .ok (.threw o')) ∧
    ∀ o', A.finalizeA f o = .ok (.threw o') → ∃ p k, PadsMessage (8 * R) suf (message ops) p ∧ (k = 0 ∨ k * R < d) ∧
      ∀ pieces : List (List Byte), (∀ q ∈ pieces, q.length < 2 ^ 64) →
        (do A.toArray (← A.run o' (pieces.map Op.add ++ [Op.finalize]))) =
          .ok (spec (message ops) (k * R) ++
            spec (message ops ++ p ++ List.replicate (k * R) 0 ++ pieces.flatten) (d - k * R))

private theorem mixes (R : Nat) [hR : RateOK R] (h8 : R % 8 = 0) (P : Byte) (suf : List Bool) (hs : IsSuffix P suf) (d : Nat) :
    RetryMixes (KeccakA R P d) R d suf
      (fun m n => Keccak.bytes (Keccak.sponge (8 * R) (Keccak.bits m ++ suf) (8 * n))) := by
  intro ops l
  obtain ⟨o, e, h⟩ := before_final h8 P suf hs d ops l
  refine ⟨o, e, fun f => ⟨fun hf => can_throw P d f hf o (rel_room h), fun o' ht => ?_⟩⟩
  obtain ⟨k, hk, hx⟩ := retry h8 P suf hs d f o o' _ h ht
  refine ⟨padBytes R P (message ops).length, k, ?_, hk, fun pieces hp => ?_⟩
  · unfold PadsMessage
    rw [bits_pad R hR.pos P suf hs, List.length_append, bits_length]
  · obtain ⟨x, e1, e2⟩ := hx pieces hp
    show (do SHA3.toVector (← (Keccak R P d).run o' _)) = _
    rw [e1]
    show Except.ok x.chain.final = _
    rw [e2]

private theorem pads (R : Nat) [hR : RateOK R] (h8 : R % 8 = 0) (P : Byte) (suf : List Bool) (hs : IsSuffix P suf) (d : Nat)
    (hd : d ≤ R) : RetryHashesPadding (KeccakA R P d) (8 * R) suf
      (fun m => Keccak.bytes (Keccak.sponge (8 * R) (Keccak.bits m ++ suf) (8 * d))) := by
  intro ops l
  obtain ⟨o, e, h⟩ := mixes R h8 P suf hs d ops l
  refine ⟨o, e, fun f => ⟨(h f).1, fun o' ht => ?_⟩⟩
  obtain ⟨p, k, hp, hk, hx⟩ := (h f).2 o' ht
  have : k = 0 := by
    rcases hk with hk | hk
    · exact hk
    · rcases k with _ | k
      · rfl
      · rw [Nat.add_mul] at hk; omega
  subst this
  refine ⟨p, hp, fun pieces hq => ?_⟩
  rw [hx pieces hq]
  simp [Keccak.sponge, Keccak.bytes]

/-! ### SHA3-224 -/

/-- C50: `finalize()` throws, or does what it does when there is memory. -/
theorem C50_SHA3_224_throwsOrWorks : SHA3_224A.ThrowsOrWorks := throwsOrWorks 0x06 28
/-- C50: whichever allocations fail, no call faults. -/
theorem C50_SHA3_224_survives : SHA3_224A.SurvivesNoMemory := survives 0x06 28
/-- C50: after `reset()` an object that ran out of memory is as new. -/
theorem C50_SHA3_224_resetRepairs : SHA3_224A.ResetRepairsNoMemory := resetRepairs 0x06 28
/-- C50: what calling `finalize()` again computes. -/
theorem C50_SHA3_224_retry_actual : RetryHashesPadding SHA3_224A 1152 [false, true] Keccak.sha3_224 :=
  pads 144 rfl 0x06 _ suffix_sha3 28 (by decide)

/-! ### SHA3-256 -/

/-- C50: `finalize()` throws, or does what it does when there is memory. -/
theorem C50_SHA3_256_throwsOrWorks : SHA3_256A.ThrowsOrWorks := throwsOrWorks 0x06 32
/-- C50: whichever allocations fail, no call faults. -/
theorem C50_SHA3_256_survives : SHA3_256A.SurvivesNoMemory := survives 0x06 32
/-- C50: after `reset()` an object that ran out of memory is as new. -/
theorem C50_SHA3_256_resetRepairs : SHA3_256A.ResetRepairsNoMemory := resetRepairs 0x06 32
/-- C50: what calling `finalize()` again computes. -/
theorem C50_SHA3_256_retry_actual : RetryHashesPadding SHA3_256A 1088 [false, true] Keccak.sha3_256 :=
  pads 136 rfl 0x06 _ suffix_sha3 32 (by decide)

/-! ### SHA3-384 -/

/-- C50: `finalize()` throws, or does what it does when there is memory. -/
theorem C50_SHA3_384_throwsOrWorks : SHA3_384A.ThrowsOrWorks := throwsOrWorks 0x06 48
/-- C50: whichever allocations fail, no call faults. -/
theorem C50_SHA3_384_survives : SHA3_384A.SurvivesNoMemory := survives 0x06 48
/-- C50: after `reset()` an object that ran out of memory is as new. -/
theorem C50_SHA3_384_resetRepairs : SHA3_384A.ResetRepairsNoMemory := resetRepairs 0x06 48
/-- C50: what calling `finalize()` again computes. -/
theorem C50_SHA3_384_retry_actual : RetryHashesPadding SHA3_384A 832 [false, true] Keccak.sha3_384 :=
  pads 104 rfl 0x06 _ suffix_sha3 48 (by decide)

/-! ### SHA3-512 -/

/-- C50: `finalize()` throws, or does what it does when there is memory. -/
theorem C50_SHA3_512_throwsOrWorks : SHA3_512A.ThrowsOrWorks := throwsOrWorks 0x06 64
/-- C50: whichever allocations fail, no call faults. -/
theorem C50_SHA3_512_survives : SHA3_512A.SurvivesNoMemory := survives 0x06 64
/-- C50: after `reset()` an object that ran out of memory is as new. -/
theorem C50_SHA3_512_resetRepairs : SHA3_512A.ResetRepairsNoMemory := resetRepairs 0x06 64
/-- C50: what calling `finalize()` again computes. -/
theorem C50_SHA3_512_retry_actual : RetryHashesPadding SHA3_512A 576 [false, true] Keccak.sha3_512 :=
  pads 72 rfl 0x06 _ suffix_sha3 64 (by decide)

/-! ### SHAKE128 -/

theorem C50_SHAKE_128_throwsOrWorks (d : Nat) : (SHAKE_128A d).ThrowsOrWorks := throwsOrWorks 0x1F d
theorem C50_SHAKE_128_survives (d : Nat) : (SHAKE_128A d).SurvivesNoMemory := survives 0x1F d
theorem C50_SHAKE_128_resetRepairs (d : Nat) : (SHAKE_128A d).ResetRepairsNoMemory := resetRepairs 0x1F d
theorem C50_SHAKE_128_retry_actual (d : Nat) : RetryMixes (SHAKE_128A d) 168 d [true, true, true, true] Keccak.shake128 :=
  mixes 168 rfl 0x1F _ suffix_shake d

/-! ### SHAKE256 -/

theorem C50_SHAKE_256_throwsOrWorks (d : Nat) : (SHAKE_256A d).ThrowsOrWorks := throwsOrWorks 0x1F d
theorem C50_SHAKE_256_survives (d : Nat) : (SHAKE_256A d).SurvivesNoMemory := survives 0x1F d
theorem C50_SHAKE_256_resetRepairs (d : Nat) : (SHAKE_256A d).ResetRepairsNoMemory := resetRepairs 0x1F d
theorem C50_SHAKE_256_retry_actual (d : Nat) : RetryMixes (SHAKE_256A d) 136 d [true, true, true, true] Keccak.shake256 :=
  mixes 136 rfl 0x1F _ suffix_shake d

/-! The classes with failing allocations are the classes. -/
example : SHA3_224A.toAPI = SHA3_224 ∧ SHA3_256A.toAPI = SHA3_256 ∧ SHA3_384A.toAPI = SHA3_384 ∧
    SHA3_512A.toAPI = SHA3_512 ∧ (SHAKE_128A 7).toAPI = SHAKE_128 7 ∧ (SHAKE_256A 7).toAPI = SHAKE_256 7 :=
  ⟨rfl, rfl, rfl, rfl, rfl, rfl⟩

/-! A history that meets the hypotheses, with a `finalize()` that fails in between. -/
example : AnyOrder ([(Op.add [1, 2], ⟨fun _ => false, []⟩), (.finalize, ⟨fun n => n == 1, []⟩), (.add [3], ⟨fun _ => false, []⟩),
      (.reset, ⟨fun _ => true, []⟩), (.finalize, ⟨fun _ => false, []⟩)].map (fun c : Op × Supply => c.1)) ∧
    Legal ([.add [1, 2], .reset, .add [3]] ++ [.finalize]) := by
  constructor
  · intro d hd
    simp at hd
    rcases hd with rfl | rfl <;> decide
  · decide

/-- The two digests differ already for the empty message. -/
private theorem differ : (match (do
      let x ← close 136 0x06 ⟨{}, init⟩
      let y ← close 136 0x06 x
      return ((stateToVector x.chain.state).take 32, (stateToVector y.chain.state).take 32) :
        Except Fault (List Byte × List Byte)) with
    | .ok (a, b) => decide (a ≠ b)
    | .error _ => false) = true := by
  set_option maxRecDepth 100000 in
  decide +kernel

private theorem fin256 (o x : Obj 136 KState) (h : close 136 0x06 o = .ok x) (hx : x.chain.final = []) :
    (do SHA3_256.toArray (← SHA3_256.finalize o)) = .ok ((stateToVector x.chain.state).take 32) := by
  show (do SHA3.toVector (← finalize 136 0x06 32 o)) = _
  rw [finalize_close, h]
  simp only [bind, Except.bind]
  rw [squeeze_last 32 _ (by rw [more_length]; omega)]
  have e : (more 136 x.chain).take 32 ++ List.replicate (32 - (more 136 x.chain).length) 0 =
      (stateToVector x.chain.state).take 32 := by
    rw [more_length, hx]
    simp only [more, hx, List.nil_append, List.take_take]
    rw [show (32 : Nat) - (([] : List Byte).length + 136) = 0 from rfl, List.replicate_zero, List.append_nil]
    rfl
  show Except.ok (_ : List Byte) = _
  exact congrArg Except.ok e

/-- C50 does not hold: `SHA3_256` finalised a second time after `std::bad_alloc` returns a digest that is not the
digest of the message. -/
theorem C50_SHA3_256_retry_fails :
    ¬∀ (f : Supply) (o' : Obj 136 KState), SHA3_256A.finalizeA f SHA3_256.fresh = .ok (.threw o') →
      (do SHA3_256.toArray (← SHA3_256.finalize o')) = .ok (Keccak.sha3_256 []) := by
  intro h
  have hd := differ
  cases e1 : close 136 0x06 ⟨{}, init⟩ with
  | error _ => rw [e1] at hd; cases hd
  | ok x =>
    rw [e1] at hd
    simp only [bind, Except.bind] at hd
    obtain ⟨_, xf, _⟩ := close_withFinal 0x06 [] _ x e1
    cases e2 : close 136 0x06 x with
    | error _ => rw [e2] at hd; cases hd
    | ok y =>
      rw [e2] at hd
      obtain ⟨_, yf, _⟩ := close_withFinal 0x06 [] _ y e2
      have ht : SHA3_256A.finalizeA ⟨fun _ => true, []⟩ SHA3_256.fresh = .ok (.threw x) := by
        show finalizeA 136 0x06 32 _ ⟨{}, init⟩ = _
        unfold finalizeA
        rw [e1]
        simp only [bind, Except.bind]
        rw [squeezeA_threw 32 _ 0 _ (.inl rfl)]
        rfl
      have h1 := h _ _ ht
      rw [fin256 x y e2 (yf.trans xf)] at h1
      obtain ⟨z, ez, hz⟩ := refines256.fin _ _ refines256.fresh
      have h2 : (do SHA3_256.toArray (← SHA3_256.finalize SHA3_256.fresh)) = .ok (Keccak.sha3_256 []) := by
        rw [ez]; exact refines256.out z [] hz
      rw [fin256 SHA3_256.fresh x e1 xf] at h2
      have h4 : (Except.ok ((stateToVector x.chain.state).take 32) : Except Fault _) = .ok ((stateToVector y.chain.state).take 32) :=
        h2.trans h1.symm
      have h5 := Except.ok.inj h4
      exact absurd h5 (of_decide_eq_true hd)

/-! ### Copy assignment -/

/-- C50: an object to which a copy assignment failed half-way can still be used and reset: no call faults, and after
`reset()` it is a new object with the digest length of the source. `hs`: the source is
an object as any calls leave it; the target may be in any state. -/
theorem C50_assign_usable {R : Nat} [hR : RateOK R] (P : Byte) (dst src : KObj R) (f : Supply)
    (hs : ∃ ops, AnyOrder ops ∧ (Keccak R P src.digestLength).run (Keccak R P src.digestLength).fresh ops = .ok src.obj)
    (calls after : List Op) (hc : AnyOrder calls) :
    ∃ o, (Keccak R P (assignA f dst src).left.digestLength).run (assignA f dst src).left.obj calls = .ok o ∧
      (Keccak R P (assignA f dst src).left.digestLength).run o (.reset :: after) =
        (Keccak R P src.digestLength).run (Keccak R P src.digestLength).fresh after := by
  obtain ⟨ops, ha, e⟩ := hs
  obtain ⟨o, e', h⟩ := (sha3Total R P src.digestLength).run ops _ ha (sha3Total R P src.digestLength).fresh
  rw [e] at e'
  cases e'
  have hl : (assignA f dst src).left.digestLength = src.digestLength := by
    unfold assignA; split <;> rfl
  have hb : (assignA f dst src).left.obj.buffer = src.obj.buffer := by
    unfold assignA; split <;> rfl
  have hroom : Room R (fun _ => True) (assignA f dst src).left.obj := by
    refine ⟨?_, trivial⟩
    rw [hb]; exact h.1
  rw [hl]
  obtain ⟨o, e, _⟩ := (sha3Total R P src.digestLength).run calls _ hc hroom
  exact ⟨o, e, rfl⟩

/-- C50: copy assignment is not all or nothing. A `SHAKE_128` object for 16 bytes that has been given one byte is
assigned a finalised one for 600 bytes, and the 600 bytes do not fit: afterwards the target has the digest length of
the source but neither the source's data nor the byte it had itself. -/
theorem C50_SHAKE_128_assign_fails :
    ∃ (dst src : KObj 168) (f : Supply) (k : KObj 168),
      (SHAKE_128 16).run (SHAKE_128 16).fresh [.add [1]] = .ok dst.obj ∧ dst.digestLength = 16 ∧
      (SHAKE_128 600).run (SHAKE_128 600).fresh [.add [2], .finalize] = .ok src.obj ∧ src.digestLength = 600 ∧
      f.left = dst.obj.chain.final ∧ assignA f dst src = .threw k ∧
      (do (SHAKE_128 k.digestLength).toArray (← (SHAKE_128 k.digestLength).finalize k.obj)) =
        .ok (Keccak.shake128 [] 600) := by
  obtain ⟨d, ed, rd⟩ := before_final (R := 168) rfl 0x1F _ suffix_shake 16 [.add [1]] (by decide)
  obtain ⟨s, es, rs⟩ := (refinesShake128 600).run_finalize [.add [2]] (by decide)
  obtain ⟨s0, es0, rs0⟩ := before_final (R := 168) rfl 0x1F _ suffix_shake 600 [.add [2]] (by decide)
  have hf : finalize 168 0x1F 600 s0 = .ok s := by
    have e := Proof.Alloc.run_append (Keccak 168 0x1F 600) [.add [2]] [.finalize] (Keccak 168 0x1F 600).fresh
    rw [es0] at e
    have e' : (SHAKE_128 600).run (SHAKE_128 600).fresh ([.add [2]] ++ [.finalize]) =
      (finalize 168 0x1F 600 s0 >>= fun o => Except.ok o) := e
    rw [es] at e'
    cases hx : finalize 168 0x1F 600 s0 with
    | error _ => rw [hx] at e'; cases e'
    | ok x => rw [hx] at e'; cases e'; rfl
  have hsb : s.buffer.Holds [] := by
    rw [finalize_close] at hf
    cases ec : close 168 0x1F s0 with
    | error _ => rw [ec] at hf; cases hf
    | ok x =>
      rw [ec] at hf
      obtain ⟨_, _, hb⟩ := close_withFinal 0x1F [] s0 x ec
      simp only [bind, Except.bind] at hf
      cases eq : squeeze 168 600 x.chain with
      | error _ => rw [eq] at hf; cases hf
      | ok c => rw [eq] at hf; cases hf; exact hb
  have hdc : d.chain = den 168 [] := rd.1
  have hr : Rel 168 (den 168) (⟨s.buffer, ⟨d.chain.state, d.chain.final⟩⟩ : Obj 168 KState) [] :=
    ⟨hdc, hsb⟩
  obtain ⟨z, ez, hz⟩ := (refinesShake128 600).fin _ _ hr
  refine ⟨⟨16, d⟩, ⟨600, s⟩, ⟨fun _ => true, d.chain.final⟩, ⟨600, ⟨s.buffer, ⟨d.chain.state, d.chain.final⟩⟩⟩,
    ed, rfl, es, rfl, rfl, rfl, ?_⟩
  show (do (SHAKE_128 600).toArray (← (SHAKE_128 600).finalize _)) = _
  rw [ez]
  exact (refinesShake128 600).out z [] hz

/-! ### cSHAKE objects and their heap -/

/-- C50: whichever allocations fail, no dangling pointer is followed and nothing is freed twice. -/
theorem C50_CSHAKE_no_dangling (nb : Nat → Nat) (R : Nat) [RateOK R] (P : List (CStmt × Supply)) :
    (Mem.empty R).execA nb P ≠ .error .dangling := by
  intro h
  have f := memA_exec nb inv_empty P (R := R)
  rw [h] at f
  exact f

/-- C50: nothing leaks and nothing is shared: every allocated cell is pointed to by exactly one pointer, of an
existing object. -/
theorem C50_CSHAKE_one_owner (nb : Nat → Nat) (R : Nat) [RateOK R] (P : List (CStmt × Supply)) (m : Mem R)
    (h : (Mem.empty R).execA nb P = .ok m) (a : Nat) (ha : m.cells a ≠ none) :
    ∃ i b, m.ptr i b = some a ∧ m.customized i ≠ none ∧ ∀ j c, m.ptr j c = some a → j = i ∧ c = b := by
  have f := memA_exec nb inv_empty P (R := R)
  rw [h] at f
  have v : Proof.CShake.Inv m := f
  obtain ⟨k, hk⟩ := Option.ne_none_iff_exists'.1 ha
  obtain ⟨i, b, hp⟩ := v.owned a k hk
  refine ⟨i, b, hp, fun hn => ?_, fun j c hj => v.inj _ _ _ _ _ hj hp⟩
  rw [v.objects i hn b] at hp
  cases hp

/-- C50: a statement that does not throw has done what it does when there is memory. -/
theorem C50_CSHAKE_throwsOrWorks (nb : Nat → Nat) (R : Nat) [RateOK R] (P : List (CStmt × Supply)) (m m' : Mem R)
    (h : (Mem.empty R).execA nb P = .ok m) (st : CStmt) (f : Supply) (hs : m.stepA nb f st = .ok (.done m')) :
    m.step nb st = .ok m' := by
  have g := memA_exec nb inv_empty P (R := R)
  rw [h] at g
  have := memA_step nb f (show Proof.CShake.Inv m from g) st
  rw [hs] at this
  exact this.1

/-- C50: a constructor that throws leaves everything as it was. -/
theorem C50_CSHAKE_constructor (nb : Nat → Nat) (R : Nat) [RateOK R] (P : List (CStmt × Supply)) (m m' : Mem R)
    (h : (Mem.empty R).execA nb P = .ok m) (f : Supply) (i j : Nat) (d : Int) (name custom : List Byte) (st : CStmt)
    (hst : st = .create j d name custom ∨ st = .copyNew i j) (hs : m.stepA nb f st = .ok (.threw m')) : m' = m := by
  have g := memA_exec nb inv_empty P (R := R)
  rw [h] at g
  have := memA_step nb f (show Proof.CShake.Inv m from g) st
  rw [hs] at this
  have hj : target st = j := by rcases hst with rfl | rfl <;> rfl
  refine this.2.2 ?_
  rw [hj]
  have hv : ∃ g : Unit → Except HeapFault (Outcome (Mem R)), m.stepA nb f st = (m.vacant j >>= g) := by
    rcases hst with rfl | rfl
    · exact ⟨_, rfl⟩
    · exact ⟨_, rfl⟩
  obtain ⟨g, hv⟩ := hv
  rw [hv] at hs
  cases e : m.vacant j with
  | error _ => rw [e] at hs; cases hs
  | ok _ => exact vacant_ok e

/-- C50: a call or an assignment that throws touches no object but its own: any further calls on another object and
the digest read then are what they would have been. -/
theorem C50_CSHAKE_others (nb : Nat → Nat) (R : Nat) [RateOK R] (P : List (CStmt × Supply)) (m m' : Mem R)
    (h : (Mem.empty R).execA nb P = .ok m) (f : Supply) (i j : Nat) (op : Op) (st : CStmt)
    (hst : st = .call j op ∨ st = .copyAssign i j) (hs : m.stepA nb f st = .ok (.threw m')) (x : Nat) (hx : x ≠ j)
    (more : List Op) :
    (do (← m'.exec nb (more.map (.call x))).toVector x) = (do (← m.exec nb (more.map (.call x))).toVector x) := by
  have g := memA_exec nb inv_empty P (R := R)
  rw [h] at g
  have v : Proof.CShake.Inv m := g
  have := memA_step nb f v st
  rw [hs] at this
  have hj : target st = j := by rcases hst with rfl | rfl <;> rfl
  have v' : Proof.CShake.Inv m' := this.1
  obtain ⟨hc, hv⟩ := this.2.1 x (by rw [hj]; exact hx)
  exact calls_congr nb v' v x hc hv more

/-- A program that meets the hypotheses: an allocation of the second statement's call and one of the assignment
fail, and the program runs on to its end. -/
def failingProgram : List (CStmt × Supply) :=
  [(.create 0 32 [] [], ⟨fun _ => false, []⟩), (.create 1 32 [] [], ⟨fun n => n == 1, []⟩),
    (.create 1 64 [] [], ⟨fun _ => false, []⟩), (.call 0 (.add [1]), ⟨fun _ => true, []⟩),
    (.call 0 .finalize, ⟨fun n => n == 0, []⟩), (.copyAssign 0 1, ⟨fun _ => true, []⟩),
    (.destroy 0, ⟨fun _ => true, []⟩)]

set_option maxRecDepth 100000 in
example : (match (Mem.empty 168).execA (fun _ => 0) failingProgram with
    | .ok m => m.customized 0 == none && m.customized 1 == some false
    | .error _ => false) = true := by decide +kernel

/-! The theorems on concrete cases: an object that gets a byte and is finalised, assigned by an assignment that throws;
and statements that throw after the program above without its last statement. -/
section Cases
example : ∃ (src : KObj 136) (o : Obj 136 KState), src.digestLength = 32 ∧
    (Keccak 136 0x06 32).run (assignA ⟨fun _ => true, []⟩ ⟨32, (Keccak 136 0x06 32).fresh⟩ src).left.obj [.add [7], .finalize] = .ok o := by
  have ha : AnyOrder [.add [1], .finalize] := fun d h => by simp at h; subst h; decide
  obtain ⟨x, e, _⟩ := (sha3Total 136 0x06 32).run [.add [1], .finalize] _ ha (sha3Total 136 0x06 32).fresh
  obtain ⟨o, e', _⟩ := C50_assign_usable 0x06 ⟨32, (Keccak 136 0x06 32).fresh⟩ ⟨32, x⟩ ⟨fun _ => true, []⟩ ⟨_, ha, e⟩ [.add [7], .finalize]
    [] (fun d h => by simp at h; subst h; decide)
  exact ⟨⟨32, x⟩, o, rfl, by
    have hl : (assignA ⟨fun _ => true, []⟩ ⟨32, (Keccak 136 0x06 32).fresh⟩ ⟨32, x⟩).left.digestLength = 32 := by
      unfold assignA; split <;> rfl
    rw [hl] at e'; exact e'⟩

/-- After two constructions, a third with a failing allocation throws and changes nothing, and one that works is the
ordinary construction; a `finalize()` with a failing allocation throws. -/
def twoObjects : List (CStmt × Supply) :=
  [(.create 0 32 [] [], ⟨fun _ => false, []⟩), (.create 1 64 [] [], ⟨fun _ => false, []⟩)]
set_option maxRecDepth 100000 in
private theorem two_ok : (match (Mem.empty 168).execA (fun _ => 0) twoObjects with
    | .ok m => (match m.stepA (fun _ => 0) ⟨fun _ => true, []⟩ (.create 2 8 [] []) with | .ok (.threw _) => true | _ => false) &&
      (match m.stepA (fun _ => 0) ⟨fun _ => false, []⟩ (.create 2 8 [] []) with | .ok (.done _) => true | _ => false) &&
      (match m.stepA (fun _ => 0) ⟨fun _ => true, []⟩ (.call 0 .finalize) with | .ok (.threw _) => true | _ => false) &&
      (m.cells 0).isSome
    | .error _ => false) = true := by decide +kernel
example : ∃ (m m1 m2 m3 : Mem 168), (Mem.empty 168).execA (fun _ => 0) twoObjects = .ok m ∧
    m.stepA (fun _ => 0) ⟨fun _ => true, []⟩ (.create 2 8 [] []) = .ok (.threw m1) ∧ m1 = m ∧
    m.stepA (fun _ => 0) ⟨fun _ => false, []⟩ (.create 2 8 [] []) = .ok (.done m2) ∧
    m.step (fun _ => 0) (.create 2 8 [] []) = .ok m2 ∧
    m.stepA (fun _ => 0) ⟨fun _ => true, []⟩ (.call 0 .finalize) = .ok (.threw m3) ∧
    (∀ more : List Op, (do (← m3.exec (fun _ => 0) (more.map (.call 1))).toVector 1) =
      (do (← m.exec (fun _ => 0) (more.map (.call 1))).toVector 1)) ∧
    ∃ i b, m.ptr i b = some 0 := by
  have h := two_ok
  cases e : (Mem.empty 168).execA (fun _ => 0) twoObjects with
  | error _ => rw [e] at h; cases h
  | ok m =>
    rw [e] at h
    simp only [Bool.and_eq_true] at h
    obtain ⟨⟨⟨h1, h2⟩, h3⟩, h4⟩ := h
    split at h1
    · rename_i m1 e1
      split at h2
      · rename_i m2 e2
        split at h3
        · rename_i m3 e3
          obtain ⟨i, b, hp, _⟩ := C50_CSHAKE_one_owner _ _ twoObjects m e 0 (fun hn => by rw [hn] at h4; cases h4)
          exact ⟨m, m1, m2, m3, rfl, e1, C50_CSHAKE_constructor _ _ twoObjects m m1 e _ 0 2 8 [] [] _ (.inl rfl) e1, e2,
            C50_CSHAKE_throwsOrWorks _ _ twoObjects m m2 e _ _ e2, e3,
            fun more => C50_CSHAKE_others _ _ twoObjects m m3 e _ 0 0 .finalize _ (.inl rfl) e3 1 (by decide) more, i, b, hp⟩
        · cases h3
      · cases h2
    · cases h1
end Cases

end Verif.Props
