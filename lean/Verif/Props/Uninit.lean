import Verif.Proof.Uninit
import Verif.Proof.UninitCRC
import Verif.Props.CRC32

/-!
# C67: no variable is read before something is assigned to it

`Model/Uninit.lean` lists the variables the code declares without an initialiser and has the functions that use them with
`none` for an element nothing was assigned to; a read of such an element makes the result `none`.
-/

namespace Verif.Props
open Model

/-- C67: the block function of HAS_160 reads no unassigned element of `xTable`, for any chaining value and block, and gives
what the model without `none` gives. -/
theorem C67_HAS_160_block (h : Vector W32 5) (x : Block 64) : HAS160.compressU h x = some (HAS160.compress h x) :=
  Proof.Uninit.HAS160.compress_ok h x

/-- C67: so whatever is done when an unassigned element is read, all results of all calls are the same. -/
theorem C67_HAS_160 (otherwise : Vector W32 5 → Block 64 → Vector W32 5) :
    mdApi 64 8 0x80 counterLE64 (fun h x => (HAS160.compressU h x).getD (otherwise h x)) HAS160.iv HAS160.toArray = HAS160.HAS_160 := by
  simp only [C67_HAS_160_block, Option.getD_some]
  rfl

/-- C67 for HAS_V_320, in the form that is compiled and in the other. -/
theorem C67_HAS_V_320_block (h : Vector W32 10) (m : Block 128) : HASV.compressU h m = some (HASV.compress h m) ∧
    HASV.compressDisabledU h m = some (HASV.compressDisabled h m) :=
  ⟨Proof.Uninit.HASV.compress_ok h m, Proof.Uninit.HASV.compressDisabled_ok h m⟩

theorem C67_HAS_V_320 (otherwise : Vector W32 10 → Block 128 → Vector W32 10) :
    mdApi 128 9 (1 <<< 7) HASV.counter (fun h m => (HASV.compressU h m).getD (otherwise h m)) HASV.iv HASV.toArray = HASV.HAS_V_320 := by
  simp only [(C67_HAS_V_320_block _ _).1, Option.getD_some]
  rfl

/-- the members of an object in which everything is assigned -/
def assigned (o : Obj (2 * 128) (MDState W64 (Vector W32 10))) : HASV.Members :=
  ⟨o.buffer.arr.toList.take o.buffer.endIdx, some o.chain.sizeCounter, o.chain.h.map some⟩

/-- C67: the constructor of HAS_V_320, which has no initialisers, leaves no member unassigned; nor does `reset()`, whatever
the members were. -/
theorem C67_HAS_V_320_construct : HASV.constructU = assigned HASV.HAS_V_320.fresh ∧
    ∀ o : HASV.Members, HASV.resetU o = assigned HASV.HAS_V_320.fresh :=
  ⟨Proof.Uninit.HASV.reset_ok _, fun o => Proof.Uninit.HASV.reset_ok o⟩

/-- C67: the array `toArray()` of HAS_V_320 returns has no unassigned element. -/
theorem C67_HAS_V_320_toArray (o : Obj (2 * 128) (MDState W64 (Vector W32 10))) :
    ∃ d, HASV.toArrayU (assigned o).h = some d ∧ HASV.HAS_V_320.toArray o = .ok d := by
  refine ⟨_, Proof.Uninit.HASV.toArray_ok o.chain.h, ?_⟩
  have hl : (o.chain.h.toList.flatMap (storeLE 4)).length = 40 := by
    rw [flatMap_storeLE (w := 32), bytesLE_length]; simp
  exact resultArray_exact _ _ hl

/-- C67: nor does `toString()` read a character that `snprintf` did not store. -/
theorem C67_HAS_V_320_toString (o : Obj (2 * 128) (MDState W64 (Vector W32 10))) :
    ∃ t, HASV.toStringU (assigned o).h = some t ∧ HASV.toString o = .ok t := by
  obtain ⟨d, h1, h2⟩ := C67_HAS_V_320_toArray o
  refine ⟨_, ?_, by unfold HASV.toString; rw [h2]; rfl⟩
  unfold HASV.toStringU
  rw [h1]
  exact Proof.Uninit.HASV.appends_ok d []

/-- the sixteen tables in the header, crc_32.h:145-691 -/
def crcRows : Vector (Vector W32 256) 16 :=
  open Model.CRC32 in
  #v[lut0, lut1, lut2, lut3, lut4, lut5, lut6, lut7, lut8, lut9, lut10, lut11, lut12, lut13, lut14, lut15]

theorem crcRows_eq (s : Fin 16) (i : Fin 256) : crcRows[s][i] = Spec.CRC32.table s i := by
  obtain ⟨h0, h1, h2, h3, h4, h5, h6, h7, h8, h9, h10, h11, h12, h13, h14, h15⟩ := C40_CRC_32_tables i
  match s with
  | ⟨0, _⟩ => exact h0
  | ⟨1, _⟩ => exact h1
  | ⟨2, _⟩ => exact h2
  | ⟨3, _⟩ => exact h3
  | ⟨4, _⟩ => exact h4
  | ⟨5, _⟩ => exact h5
  | ⟨6, _⟩ => exact h6
  | ⟨7, _⟩ => exact h7
  | ⟨8, _⟩ => exact h8
  | ⟨9, _⟩ => exact h9
  | ⟨10, _⟩ => exact h10
  | ⟨11, _⟩ => exact h11
  | ⟨12, _⟩ => exact h12
  | ⟨13, _⟩ => exact h13
  | ⟨14, _⟩ => exact h14
  | ⟨15, _⟩ => exact h15
  | ⟨n + 16, hn⟩ => omega

/-- C67: the generator of the CRC-32 tables that `#if 0` disables assigns every element of the array it is given, whatever the
array held, reads none before, and what it makes with the polynomial it is called with are the tables in the header. -/
theorem C67_CRC_32_generator (start : Vector (Option W32) 4096) :
    ∃ t, CRC32.generateLUT 0xEDB88320 start = some t ∧ ∀ (s : Fin 16) (i : Fin 256), t[256 * s.val + i.val] = some crcRows[s][i] := by
  obtain ⟨t, ht, k⟩ := Proof.Uninit.CRC32.generate_ok 0xEDB88320 start
  refine ⟨t, ht, fun s i => ?_⟩
  rw [k s.val i.val s.isLt i.isLt trivial, Proof.Uninit.CRC32.T_eq, crcRows_eq]

/-- C67: with any polynomial no element is left unassigned. -/
theorem C67_CRC_32_generator_any (polynomial : W32) (start : Vector (Option W32) 4096) :
    ∃ t, CRC32.generateLUT polynomial start = some t ∧ ∀ (i : Fin 4096), t[i] ≠ none := by
  obtain ⟨t, ht, k⟩ := Proof.Uninit.CRC32.generate_ok polynomial start
  refine ⟨t, ht, fun i => ?_⟩
  have := k (i.val / 256) (i.val % 256) (by omega) (by omega) trivial
  simp only [show 256 * (i.val / 256) + i.val % 256 = i.val by omega] at this
  rw [Fin.getElem_fin, this]
  simp

/-- C67: so the class with the disabled part enabled does to every state and all data what it does now. -/
theorem C67_CRC_32_disabled (start : Vector (Option W32) 4096) : ∃ t, CRC32.generateLUT 0xEDB88320 start = some t ∧
    (∀ (h : W32) (m : Block 16), CRC32.bodyU t h m = some (CRC32.body h m)) ∧
    ∀ (h : W32) (x : Byte), CRC32.tailByteU t h x = some (CRC32.tailByte h x) := by
  obtain ⟨t, ht, k⟩ := C67_CRC_32_generator start
  have e (s : Fin 16) (b : Byte) : CRC32.entryU t s b = some (crcRows[s][b.toNat]'b.isLt) := k s ⟨b.toNat, b.isLt⟩
  refine ⟨t, ht, fun h m => ?_, fun h x => ?_⟩
  · unfold CRC32.bodyU
    simp only [e]
    rfl
  · unfold CRC32.tailByteU
    simp only [e]
    rfl

/-! Witnesses: elements are unassigned, and reading one is noticed. -/
example : (HAS160.loadXU (Vector.replicate 64 1))[15] = some 0x01010101 ∧ (HAS160.loadXU (Vector.replicate 64 1))[16] = none := by
  decide
/-- A round called before the table is extended reads an unassigned element. -/
example : HAS160.execU (HAS160.loadXU (Vector.replicate 64 1)) HAS160.iv ⟨.r1, 0, 1, 2, 3, 4, 5, 0⟩ = none := by decide
example : HASV.toArrayU HASV.raw.h = none := by decide
example : HASV.cString [some 'a', none, some '\x00'] = none ∧ HASV.cString [some 'a', some '\x00', none] = some ['a'] := by decide

end Verif.Props
