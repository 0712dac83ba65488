/-- `SipHash<C, D>` with any key; the constructor and `reset()` load the words of the key. -/
theorem C63_SipHash (C D : Nat) (key : Block 16) : DefinedSteps (SipHash.bodyO C) ∧
    (SipHash.SipHashCDO C D key).Defined (fun o => o.chain.2) :=
  ⟨Proof.OpsDefined.sip C, Proof.OpsDefined.sipClass C D key⟩

/-- the FNV classes -/
theorem C63_FNV (w v : Nat) : DefinedSteps (FNV.bodyO (w := w) v) ∧ (FNV.FNVHashO w v).Defined Prod.snd :=
  ⟨Proof.OpsDefined.fnv w v, Proof.OpsDefined.fnvClass w v⟩

theorem C63_CRC_32 : DefinedSteps CRC32.bodyO ∧ DefinedSteps CRC32.tailByteO ∧ CRC32.CRC_32O.Defined Prod.snd :=
  ⟨Proof.OpsDefined.crc32, Proof.OpsDefined.crc32Tail, Proof.OpsDefined.crc32Class⟩

theorem C63_MD2 : DefinedSteps MD2.bodyO ∧ MD2.MD2O.Defined (fun o => o.chain.2) :=
  ⟨Proof.OpsDefined.md2, Proof.OpsDefined.md2Class⟩

/-- `Tiger<V, D>`, for every `V` and `D` -/
theorem C63_Tiger (V D : Nat) : DefinedSteps Tiger.compressO ∧
    (mdApiO 64 8 (if V = 1 then 1 else 1 <<< 7) counterLE64 Tiger.compressO Tiger.iv (Tiger.toArray D)).Defined
      (fun o => o.chain.h.2) :=
  ⟨Proof.OpsDefined.tiger, Proof.OpsDefined.md _ Proof.OpsDefined.tiger _ _ _⟩

theorem C63_Whirlpool : DefinedSteps Whirlpool.compressO ∧
    (mdApiO 64 32 (1 <<< 7) counterBE128 Whirlpool.compressO Whirlpool.iv Whirlpool.toArray).Defined (fun o => o.chain.h.2) :=
  ⟨Proof.OpsDefined.whirlpool, Proof.OpsDefined.md _ Proof.OpsDefined.whirlpool _ _ _⟩

section
open Model.CShake
variable (nb : Nat → Nat) (R : Nat) [SHA3.RateOK R] (d : Int)

/-- cSHAKE: in the logs of both objects that the class may own -/
theorem C63_CSHAKE (name customize : List Byte) (ops : List Op) (o : CShakeO R)
    (h : (do runO (← constructO nb R d name customize) ops) = .ok o) : ∀ i ∈ o.log.1 ++ o.log.2, i.Defined := by
  have hg := Proof.OpsDefined.good_bind (Proof.OpsDefined.construct_fine nb (R := R) d name customize)
    (Proof.OpsDefined.crun_fine ops)
  have := hg o h
  intro i hi
  rcases List.mem_append.1 hi with hi | hi
  · exact this.1 i hi
  · exact this.2 i hi

/-- TupleHash, where `.add` is `nextData` -/
theorem C63_TupleHash (customize : List Byte) (ops : List Op) (o : TupleHashO R)
    (h : (do tupleRunO nb (← tupleConstructO nb R d customize) ops) = .ok o) :
    ∀ i ∈ o.cshake.log.1 ++ o.cshake.log.2, i.Defined := by
  have hg := Proof.OpsDefined.good_bind (I := fun o : TupleHashO R => Proof.OpsDefined.CFine o.cshake)
    (x := tupleConstructO nb R d customize)
    (Proof.OpsDefined.good_bind (Proof.OpsDefined.construct_fine nb (R := R) d Model.CShake.tupleHashName customize)
      fun c hc => Proof.OpsDefined.good_ok hc) (Proof.OpsDefined.tupleRun_fine nb ops)
  have := hg o h
  intro i hi
  rcases List.mem_append.1 hi with hi | hi
  · exact this.1 i hi
  · exact this.2 i hi

end

/-! ## Cases that meet the hypotheses -/

/-- the amounts of the shifts to the left -/
def leftShifts (l : List Instr) : List Nat := l.filterMap fun
  | .shl _ s => some s
  | _ => none

/-- a run that has shifted: the key is loaded and one word of 8 bytes is taken in -/
example : (Except.map (fun o => (leftShifts o.chain.2).eraseDups) ((SipHash.SipHashCDO 2 4 (Vector.replicate 16 7)).run
    (SipHash.SipHashCDO 2 4 (Vector.replicate 16 7)).fresh [.add (List.replicate 9 1)])).toOption =
      some [0, 8, 16, 24, 32, 40, 48, 56, 13, 17, 21] := by decide +kernel

/-- the words of one block of SHA-1 are loaded and rotated by 1, 2, 5 and 30 -/
example : (leftShifts (SHA1.compressO SHA1.iv (Vector.replicate 64 0)).ops).eraseDups = [24, 16, 8, 0, 5, 30, 1, 2] := by
  decide +kernel

/-- A rotation by 0 without the test for 0 is undefined. -/
example : ¬ DefinedSteps (fun (s : W32) (_ : Unit) => (Ops.var s <<< 0) ||| (Ops.var s >>> 32)) := fun h => by
  have := h 0 () (.shr 32 32) (by decide)
  exact absurd this (by decide)

/-- With the test it is not, and a rotation by more than the width is. -/
example : DefinedSteps (fun (s : W32) (_ : Unit) => (Ops.var s).rotl 0) := fun _ _ i hi => by
  simp [Ops.rotl, Ops.var] at hi

example : ¬ DefinedSteps (fun (s : W32) (_ : Unit) => (Ops.var s).rotl 33) := fun h => by
  have := h 0 () (.shl 32 33) (by decide)
  exact absurd this (by decide)

/-- One that shifts by an amount from the data may be undefined. -/
example : ¬ DefinedSteps (fun (s : W32) (m : W32) => Ops.var s <<< m.toNat) := fun h => by
  have := h 0 32 (.shl 32 32) (by decide)
  exact absurd this (by decide)

end Verif.Props
