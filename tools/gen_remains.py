#!/usr/bin/env python3
"""Writes lean/Verif/Props/Remains.lean."""
import os
OUT = os.path.join(os.path.dirname(__file__), "..", "lean", "Verif", "Props", "Remains.lean")
s = '''import Verif.Proof.HASVRemains
import Verif.Proof.Remains
import Verif.Props.Trace

/-!
# C73: what an object keeps of the message as it is

Generated by tools/gen_remains.py. `KeepsLast` and `Wipes` are defined in Core/Remains.lean. The state that the message is
hashed into is not looked at here, nor are local variables, nor memory that was given back.
-/

namespace Verif.Props
open Model Proof.Remains

'''
MD = [("SHA1", "SHA1.SHA1", 64, "counterBE64_ok")]
MD += [(f"SHA2_{n}", f"SHA2.SHA2_{n}", b, f"counterBE{c}_ok") for n, b, c in
       [("224", 64, 64), ("256", 64, 64), ("384", 128, 128), ("512", 128, 128), ("512_224", 128, 128), ("512_256", 128, 128)]]
MD += [("MD4", "MD4.MD4", 64, "counterLE64_ok"), ("MD5", "MD5.MD5", 64, "counterLE64_ok"),
       ("HAS_160", "HAS160.HAS_160", 64, "counterLE64_ok"), ("SM3", "SM3.SM3", 64, "counterBE64_ok"),
       ("Whirlpool", "Whirlpool.Whirlpool", 64, "Proof.Whirlpool.counter32_ok")]
MD += [(f"RIPEMD_{n}", f"RIPEMD.RIPEMD_{n}", 64, "counterLE64_ok") for n in (128, 160, 256, 320)]
for n, c, B, ok in MD:
    s += f"theorem C73_{n} : {c}.KeepsLast (untilBlock {B}) := mdKeeps (by decide) (by decide) _ {ok} _ _ _\n"
    s += f"theorem C73_{n}_wipes : {c}.Wipes := mdWipes\n"
s += '''
/-- `Tiger<V, D>`, for every `V` and `D` -/
theorem C73_Tiger (V D : Nat) : (Tiger.Tiger V D).KeepsLast (untilBlock 64) :=
  mdKeeps (by decide) (by decide) _ counterLE64_ok _ _ _
theorem C73_Tiger_wipes (V D : Nat) : (Tiger.Tiger V D).Wipes := mdWipes

theorem C73_MD2_wipes : MD2.MD2.Wipes := md2Wipes
theorem C73_MD2 : MD2.MD2.KeepsLast (untilBlock 16) :=
  objKeeps Proof.MD2.refines rfl rfl (fun _ _ h => h) C73_MD2_wipes

'''
for n, B in [(224, 64), (256, 64), (384, 128), (512, 128)]:
    s += f'''theorem C73_Blake1_{n}_wipes : BLAKE.Blake1_{n}.Wipes := wipes blakeWipes fun _ => rfl
theorem C73_Blake1_{n} : BLAKE.Blake1_{n}.KeepsLast (untilBlock {B}) :=
  objKeeps Proof.BLAKE.refines{n} rfl rfl (fun _ _ h => h) C73_Blake1_{n}_wipes
'''
s += "\n/-! BLAKE2 keeps a complete last block, since it has to know that no byte follows. -/\n"
for n, B, k in [("Blake2", 128, "2"), ("Blake2s", 64, "2s")]:
    s += f'''theorem C73_{n}_wipes : BLAKE2.{n}.Wipes := blake2Wipes _ _ _
theorem C73_{n} : BLAKE2.{n}.KeepsLast (lastBlock {B}) :=
  lastKeeps (by decide) Proof.BLAKE2.refines{k} rfl rfl (fun _ _ h => h) C73_{n}_wipes
'''
s += '''
private theorem keccak (R : Nat) [hR : SHA3.RateOK R] (P : Byte) (d : Nat) : (SHA3.Keccak R P d).KeepsLast (untilBlock R) :=
  objKeeps (Proof.Trace.keccakRefines R P d) rfl rfl (fun _ _ h => h) (keccakWipes R P d)

'''
for n, R in [(224, 144), (256, 136), (384, 104), (512, 72)]:
    s += f"theorem C73_SHA3_{n} : SHA3.SHA3_{n}.KeepsLast (untilBlock {R}) := keccak {R} 0x06 {n//8}\n"
    s += f"theorem C73_SHA3_{n}_wipes : SHA3.SHA3_{n}.Wipes := keccakWipes {R} 0x06 {n//8}\n"
for n, R in [(128, 168), (256, 136)]:
    s += f"theorem C73_SHAKE_{n} (d : Nat) : (SHA3.SHAKE_{n} d).KeepsLast (untilBlock {R}) := keccak {R} 0x1F d\n"
    s += f"theorem C73_SHAKE_{n}_wipes (d : Nat) : (SHA3.SHAKE_{n} d).Wipes := keccakWipes {R} 0x1F d\n"
s += '''
theorem C73_SipHash_wipes (C D : Nat) (key : Block 16) : (SipHash.SipHashCD C D key).Wipes := sipWipes C D key
theorem C73_SipHash (C D : Nat) (key : Block 16) : (SipHash.SipHashCD C D key).KeepsLast (untilBlock 8) :=
  objKeeps (Proof.SipHash.refines C D key) rfl rfl (fun _ _ h => h) (C73_SipHash_wipes C D key)

/-- A SipHash object has its key to the end: whatever was called, the 16 bytes are there to be read. -/
theorem C73_SipHash_key (C D : Nat) (key : Block 16) (ops : List Op) (o : SipHash.O)
    (h : (SipHash.SipHashCD C D key).run (SipHash.SipHashCD C D key).fresh ops = .ok o) :
    o.chain.key = #v[loadLE64 key 0, loadLE64 key 1] := sipKey C D key ops o h

section
open Model.CShake Proof.CShake Proof.CShakeCalls Spec
variable {R : Nat} [hR : SHA3.RateOK R]

/-- The array of the object in use. -/
def cshakeArray (o : CShake R) : Option (List Byte) := (if o.customized then o.keccak else o.shake).map (·.obj.buffer.arr.toList)

private theorem prefix_or (p : List Byte) (ops : List Op) (acc : List Byte) :
    messageFrom (p ++ acc) ops = p ++ messageFrom acc ops ∨ messageFrom (p ++ acc) ops = messageFrom acc ops := by
  induction ops generalizing acc with
  | nil => exact .inl rfl
  | cons op ops ih =>
    cases op with
    | add d => simp only [messageFrom, List.append_assoc]; exact ih (acc ++ d)
    | reset => exact .inr rfl
    | finalize => exact ih acc

private theorem last_prefix {p : List Byte} (hp : p.length % R = 0) (m : List Byte) :
    untilBlock R (p ++ m).length = untilBlock R m.length ∧
      (p ++ m).drop ((p ++ m).length - untilBlock R (p ++ m).length) = m.drop (m.length - untilBlock R m.length) := by
  have e : untilBlock R (p ++ m).length = untilBlock R m.length := by
    unfold untilBlock
    rw [List.length_append, Nat.add_mod, hp, Nat.zero_add, Nat.mod_mod]
  have hle : untilBlock R m.length ≤ m.length := Nat.mod_le _ _
  refine ⟨e, ?_⟩
  rw [e, List.length_append, List.drop_append, List.drop_eq_nil_of_le (by omega), List.nil_append]
  congr 1; omega

/-- C73: a customised cSHAKE object; nothing of name and customization is kept as it is. -/
theorem C73_CSHAKE (nb : Nat → Nat) (hnb : SP800185.ExactLog nb) (h8 : R % 8 = 0) (name custom : List Byte)
    (hne : ¬(name = [] ∧ custom = [])) (hn : name.length < 2 ^ 53 - 256) (hc : custom.length < 2 ^ 53 - 256) (d : Nat)
    (ops : List Op) (hl : Legal ops) :
    ∃ o, (do CShake.run (← CShake.construct nb R d name custom) ops) = .ok o ∧ cshakeArray o = some
      (if finished ops then List.replicate R 0
      else (message ops).drop ((message ops).length - (message ops).length % R) ++ List.replicate (R - (message ops).length % R) 0) := by
  obtain ⟨pieces, e, hp, hfl⟩ := prefix_ok nb hnb h8 name custom hn hc
  obtain ⟨o, h1, h2⟩ := keccak R 0x04 d (pieces.map Op.add ++ ops) (legal_append pieces hp ops hl)
  rw [construct_calls nb name custom hne pieces e]
  refine ⟨mk true ⟨d, o⟩, ?_, ?_⟩
  · rw [← run_append, run_mk]
    show (do return mk true ⟨d, ← (SHA3.Keccak R 0x04 d).run (SHA3.Keccak R 0x04 d).fresh _⟩) = _
    rw [h1]; rfl
  · show some o.buffer.arr.toList = _
    rw [h2]
    congr 1
    rw [message_append, hfl]
    by_cases f : finished ops
    · rw [if_pos f, if_pos ((finished_append _ _).2 f)]
    · rw [if_neg f, if_neg fun k => f ((finished_append _ _).1 k)]
      have hpre : (pre R name custom).length % R = 0 := bytepad_aligned _ hR.pos
      have hm := prefix_or (pre R name custom) ops []
      rw [List.append_nil] at hm
      rcases hm with hm | hm
      · rw [hm]
        obtain ⟨e1, e2⟩ := last_prefix hpre (messageFrom [] ops)
        rw [e2, e1]
        rfl
      · rw [hm]; rfl

/-- C73: a cSHAKE object without name and customization -/
theorem C73_CSHAKE_plain (nb : Nat → Nat) (d : Nat) (ops : List Op) (hl : Legal ops) :
    ∃ o, (do CShake.run (← CShake.construct nb R d [] []) ops) = .ok o ∧ cshakeArray o = some
      (if finished ops then List.replicate R 0
      else (message ops).drop ((message ops).length - (message ops).length % R) ++ List.replicate (R - (message ops).length % R) 0) := by
  obtain ⟨o, h1, h2⟩ := keccak R 0x1F d ops hl
  rw [construct_plain]
  refine ⟨mk false ⟨d, o⟩, ?_, congrArg some h2⟩
  show CShake.run (mk false ⟨d, _⟩) ops = _
  rw [run_mk]
  show (do return mk false ⟨d, ← (SHA3.Keccak R 0x1F d).run (SHA3.Keccak R 0x1F d).fresh _⟩) = _
  rw [h1]; rfl

/-- C73: a TupleHash object keeps the end of the elements, each with its length before it, up to the last whole block. -/
theorem C73_TupleHash (nb : Nat → Nat) (hnb : SP800185.ExactLog nb) (h8 : R % 8 = 0) (custom : List Byte)
    (hc : custom.length < 2 ^ 53 - 256) (d : Nat) (hd : d < 2 ^ 28) (ops : List Op) (hl : Legal ops)
    (hs : ∀ s, Op.add s ∈ ops → s.length < 2 ^ 53 - 256) (encoded : List Byte)
    (he : encoded = (elementsFrom [] ops).flatMap SP800185.encodeString) :
    ∃ o, (do tupleRun nb (← tupleConstruct nb R d custom) ops) = .ok o ∧ cshakeArray o.cshake = some
      (if finished ops then List.replicate R 0
      else encoded.drop (encoded.length - encoded.length % R) ++ List.replicate (R - encoded.length % R) 0) := by
  have hname : Model.CShake.tupleHashName = SP800185.tupleHashName := by decide +kernel
  obtain ⟨o, h1, h2⟩ := C73_CSHAKE nb hnb h8 SP800185.tupleHashName custom (by simp [SP800185.tupleHashName])
    (by decide +kernel) hc d (calls d ops) (legal_calls d hd ops hs false hl)
  unfold tupleConstruct
  rw [hname]
  cases ec : CShake.construct nb R d SP800185.tupleHashName custom with
  | error x => rw [ec] at h1; cases h1
  | ok c =>
    rw [ec] at h1
    have h1 : CShake.run c (calls d ops) = .ok o := h1
    refine ⟨⟨o, d⟩, ?_, ?_⟩
    · show tupleRun nb ⟨c, d⟩ ops = _
      rw [tupleRun_calls nb hnb d hd c ops hs, h1]; rfl
    · show cshakeArray o = _
      rw [h2]
      by_cases f : finished ops
      · rw [if_pos f, if_pos ((finished_calls _ _).2 f)]
      · rw [if_neg f, if_neg fun k => f ((finished_calls _ _).1 k), message_calls d ops hl f, ← he]

end

section
open Model.HASV Proof.HASVRemains

/-- HAS_V_320 keeps its bytes in a `std::vector`, whose `clear()` leaves them where they are: a message of less than a
block, given at once, is still in the memory of the object after `finalize()`, and after `reset()`. -/
theorem C73_HAS_V_320_fails (g : SHA3.Growth) (m : List Byte) (hm : m.length < 128) :
    ∃ o o', addDataR g freshR m = .ok o ∧ finalizeR g o = .ok o' ∧ o'.buffer.size = 0 ∧
      (∃ t, o'.buffer.mem = m ++ t) ∧ ∃ t, (resetR o).buffer.mem = m ++ t := by
  have hd : (⟨m, m.length⟩ : RVec).data = m := List.take_length
  obtain ⟨o', e, ⟨t, h⟩, hz⟩ := finalize_prefix g ⟨⟨m, m.length⟩, ⟨0, iv⟩⟩ (Nat.le_refl _) hm
  rw [hd] at h
  exact ⟨_, o', addData_fresh g m hm, e, hz, ⟨t, h.symm⟩, [], (List.append_nil m).symm⟩

/-- More generally: `finalize()` takes nothing away from what waits in the vector. -/
theorem C73_HAS_V_320_left (g : SHA3.Growth) (o : RObj) (h : o.buffer.size ≤ o.buffer.mem.length) (hs : o.buffer.size < 128) :
    ∃ o', finalizeR g o = .ok o' ∧ o.buffer.data <+: o'.buffer.mem ∧ o'.buffer.size = 0 := finalize_prefix g o h hs

/-- The model with the memory in sight does what the model of C68 does when no allocation fails. -/
theorem C73_HAS_V_320_model (g : SHA3.Growth) (o : RObj) (h : o.buffer.size ≤ o.buffer.mem.length) (d : List Byte) :
    addDataV g plenty (seenO o) d = (addDataR g o d).map (fun o => .done (seenO o)) ∧
    finalizeV g plenty (seenO o) = (finalizeR g o).map (fun o => .done (seenO o)) ∧
    resetV (seenO o) = seenO (resetR o) ∧ seenO freshR = freshV ∧
    (∀ o', addDataR g o d = .ok o' → o'.buffer.size ≤ o'.buffer.mem.length) ∧
    ∀ o', finalizeR g o = .ok o' → o'.buffer.size ≤ o'.buffer.mem.length :=
  ⟨(addData_seen g o h d).1, (finalize_seen g o h).1, by simp [resetV, resetR, seenO, (seen_clear o.buffer).1],
    by
      show (⟨⟨(List.replicate _ _).take 0, (List.replicate _ (0 : Byte)).length⟩, _⟩ : VObj) = _
      rw [List.length_replicate]; rfl, (addData_seen g o h d).2, (finalize_seen g o h).2⟩

end

/-! Concrete cases: after 65 bytes in two pieces SHA-256 has the last of them in its buffer, BLAKE2s after 64 bytes all of
them; and a history with a `reset()` and a `finalize()`. -/
set_option maxRecDepth 10000 in
example : ∃ o, SHA2.SHA2_256.run SHA2.SHA2_256.fresh [.add (List.replicate 64 1), .add [7]] = .ok o ∧
    o.buffer.arr.toList = [7] ++ List.replicate 127 0 :=
  C73_SHA2_256 [.add (List.replicate 64 1), .add [7]] (by decide)
set_option maxRecDepth 10000 in
example : ∃ o, BLAKE2.Blake2s.run BLAKE2.Blake2s.fresh [.add (List.replicate 64 1)] = .ok o ∧
    o.buffer.arr.toList = List.replicate 64 1 :=
  C73_Blake2s [.add (List.replicate 64 1)] (by decide)
example : ∃ o, MD2.MD2.run MD2.MD2.fresh [.add [1, 2], .reset, .add [3], .finalize] = .ok o ∧
    o.buffer.arr.toList = List.replicate 32 0 :=
  C73_MD2 [.add [1, 2], .reset, .add [3], .finalize] (by decide)
example := C73_CSHAKE (R := 168) Proof.CShake.countBytes Proof.CShake.countBytes_exact rfl [1, 2] [3] (by decide) (by decide)
  (by decide) 32 [.add [1], .add [2]] (by decide)
example := C73_TupleHash (R := 168) Proof.CShake.countBytes Proof.CShake.countBytes_exact rfl [3] (by decide) 32 (by decide)
  [.add [1], .add [2]] (by decide) (by simp) _ rfl
example (g : SHA3.Growth) := C73_HAS_V_320_fails g [1, 2, 3] (by decide)

end Verif.Props
'''
open(OUT, "w").write(s)
