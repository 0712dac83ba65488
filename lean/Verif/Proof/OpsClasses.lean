import Verif.Proof.Ops

/-! The block functions one by one. -/

namespace Verif.Proof.Ops
open Verif Verif.Ops Model

section
variable {w n r : Nat}

theorem same_add {x x' y y' : Ops (BitVec w)} (h : x.ops = x'.ops) (k : y.ops = y'.ops) : (x + y).ops = (x' + y').ops := by
  show x.ops ++ y.ops ++ _ = x'.ops ++ y'.ops ++ _
  rw [h, k]
theorem same_xor {x x' y y' : Ops (BitVec w)} (h : x.ops = x'.ops) (k : y.ops = y'.ops) : (x ^^^ y).ops = (x' ^^^ y').ops := by
  show x.ops ++ y.ops ++ _ = x'.ops ++ y'.ops ++ _
  rw [h, k]
theorem same_mul {x x' y y' : Ops (BitVec w)} (h : x.ops = x'.ops) (k : y.ops = y'.ops) : (x * y).ops = (x' * y').ops := by
  show x.ops ++ y.ops ++ _ = x'.ops ++ y'.ops ++ _
  rw [h, k]
theorem same_rotl {x x' : Ops (BitVec w)} (h : x.ops = x'.ops) (s : Nat) : (Ops.rotl x s).ops = (Ops.rotl x' s).ops := by
  show x.ops ++ _ = x'.ops ++ _
  rw [h]
theorem same_rotr {x x' : Ops (BitVec w)} (h : x.ops = x'.ops) (s : Nat) : (Ops.rotr x s).ops = (Ops.rotr x' s).ops := by
  show x.ops ++ _ = x'.ops ++ _
  rw [h]
theorem same_wr {x x' : Ops (BitVec w)} (h : x.ops = x'.ops) (name : String) (v v' : Vector (BitVec w) n) (i : Nat) (hi : i < n) :
    (wr name v i x hi).ops = (wr name v' i x' hi).ops := by
  show x.ops ++ _ = x'.ops ++ _
  rw [h]
theorem same_storeList_nil (name : String) (i : Nat) :
    (storeList name i ([] : List (Ops (BitVec w)))).ops = (storeList name i ([] : List (Ops (BitVec w)))).ops := rfl

theorem same_storeList_cons {x x' : Ops (BitVec w)} {xs xs' : List (Ops (BitVec w))} {name : String} {i : Nat}
    (h : x.ops = x'.ops) (k : (storeList name (i + 1) xs).ops = (storeList name (i + 1) xs').ops) :
    (storeList name i (x :: xs)).ops = (storeList name i (x' :: xs')).ops := by
  show x.ops ++ _ ++ (storeList name (i + 1) xs).ops = x'.ops ++ _ ++ (storeList name (i + 1) xs').ops
  rw [h, k]

theorem same_stores {xs xs' : List (Ops (BitVec w))} {name : String} (k : (storeList name 0 xs).ops = (storeList name 0 xs').ops)
    (h : xs.length = n) (h' : xs'.length = n) : (stores name xs h).ops = (stores name xs' h').ops := k

theorem same_and {x x' y y' : Ops (BitVec w)} (h : x.ops = x'.ops) (k : y.ops = y'.ops) : (x &&& y).ops = (x' &&& y').ops := by
  show x.ops ++ y.ops ++ _ = x'.ops ++ y'.ops ++ _
  rw [h, k]
theorem same_or {x x' y y' : Ops (BitVec w)} (h : x.ops = x'.ops) (k : y.ops = y'.ops) : (x ||| y).ops = (x' ||| y').ops := by
  show x.ops ++ y.ops ++ _ = x'.ops ++ y'.ops ++ _
  rw [h, k]
theorem same_not {x x' : Ops (BitVec w)} (h : x.ops = x'.ops) : (~~~x).ops = (~~~x').ops := by
  show x.ops ++ _ = x'.ops ++ _
  rw [h]
theorem same_ror {x x' : Ops (BitVec w)} (h : x.ops = x'.ops) (s : Nat) : (Ops.ror r x s).ops = (Ops.ror r x' s).ops := by
  show x.ops ++ _ = x'.ops ++ _
  rw [h]
theorem same_rd (name : String) (v v' : Vector (BitVec w) n) (i : Nat) (h : i < n) : (rd name v i h).ops = (rd name v' i h).ops := rfl
theorem same_var (x x' : BitVec w) : (var x).ops = (var x').ops := rfl
theorem same_pure {α : Type} (x x' : α) : (pure x : Ops α).ops = (pure x' : Ops α).ops := rfl
theorem same_loadBE32 (m m' : Block n) (i : Nat) (h : 4 * i + 4 ≤ n) : (Ops.loadBE32 m i h).ops = (Ops.loadBE32 m' i h).ops := rfl
theorem same_loadLE32 (m m' : Block n) (i : Nat) (h : 4 * i + 4 ≤ n) : (Ops.loadLE32 m i h).ops = (Ops.loadLE32 m' i h).ops := rfl
theorem same_loadBE64 (m m' : Block n) (i : Nat) (h : 8 * i + 8 ≤ n) : (Ops.loadBE64 m i h).ops = (Ops.loadBE64 m' i h).ops := rfl
theorem same_loadLE64 (m m' : Block n) (i : Nat) (h : 8 * i + 8 ≤ n) : (Ops.loadLE64 m i h).ops = (Ops.loadLE64 m' i h).ops := rfl

end

/-- operation by operation -/
macro "same_ops" : tactic => `(tactic|
  repeat' first
    | with_reducible exact same_rd _ _ _ _ _
    | with_reducible exact same_var _ _
    | with_reducible exact same_pure _ _
    | with_reducible exact same_loadBE32 _ _ _ _
    | with_reducible exact same_loadLE32 _ _ _ _
    | with_reducible exact same_loadBE64 _ _ _ _
    | with_reducible exact same_loadLE64 _ _ _ _
    | with_reducible refine same_bind ?_ (fun _ _ => ?_)
    | with_reducible refine same_wr ?_ _ _ _ _ _
    | with_reducible refine same_stores ?_ _ _
    | with_reducible exact same_storeList_nil _ _
    | with_reducible refine same_storeList_cons ?_ ?_
    | with_reducible refine same_rotl ?_ _
    | with_reducible refine same_rotr ?_ _
    | with_reducible refine same_ror ?_ _
    | with_reducible refine same_add ?_ ?_
    | with_reducible refine same_xor ?_ ?_
    | with_reducible refine same_mul ?_ ?_
    | with_reducible refine same_and ?_ ?_
    | with_reducible refine same_or ?_ ?_
    | with_reducible refine same_not ?_
    | with_reducible refine fold_same (fun _ _ _ => ?_) _ _ _
    | with_reducible refine forRange_same (fun _ _ _ _ _ => ?_) _ _)

/-! ### SHA-1 -/

theorem sha1_exec_value (m : Block 64) (s : SHA1.Locals) (q : SHA1.Call) : (SHA1.execO m s q).value = SHA1.exec m s q := by
  rcases q with ⟨rnd, a, b, c, d, e, t⟩
  cases rnd
  · by_cases h : t.val < 16
    · simp only [SHA1.execO, SHA1.exec, SHA1.schedO, SHA1.sched, h, dif_pos]; rfl
    · simp only [SHA1.execO, SHA1.exec, SHA1.schedO, SHA1.sched, h, dif_neg, not_false_eq_true]; rfl
  all_goals rfl

theorem sha1_exec_same (m m' : Block 64) (s s' : SHA1.Locals) (q : SHA1.Call) : (SHA1.execO m s q).ops = (SHA1.execO m' s' q).ops := by
  rcases q with ⟨rnd, a, b, c, d, e, t⟩
  unfold SHA1.execO
  cases rnd
  · unfold SHA1.schedO SHA1.fnO
    by_cases h : t.val < 16
    · simp only [h, dif_pos]
      same_ops
    · simp only [h, dif_neg, not_false_eq_true]
      same_ops
  all_goals
    unfold SHA1.schedO SHA1.fnO
    same_ops

theorem sha1 : Steady SHA1.compress SHA1.compressO where
  value := fun s m => by
    unfold SHA1.compressO SHA1.compress
    simp only [value_bind, fold_value (sha1_exec_value m)]
    rfl
  same := fun s m s' m' => by
    unfold SHA1.compressO
    same_ops
    exact sha1_exec_same _ _ _ _ _

/-! ### SHA-2 -/

theorem value_step {α γ : Type} {x : Ops α} {y : α} (h : x.value = y) {f : α → Ops γ} {r : γ} (hr : (f y).value = r) :
    (x >>= f).value = r := by
  subst h
  exact hr

/-- what is asked of the functions of a configuration -/
structure Sha2OK {w B : Nat} {c : SHA2.Cfg w B} (k : SHA2.CfgO c) : Prop where
  load : ∀ m t h, (k.load m t h).value = c.load m t h
  ssig0 : ∀ x, (k.ssig0 x).value = c.ssig0 x
  ssig1 : ∀ x, (k.ssig1 x).value = c.ssig1 x
  bsig0 : ∀ x, (k.bsig0 x).value = c.bsig0 x
  bsig1 : ∀ x, (k.bsig1 x).value = c.bsig1 x
  load' : ∀ m m' t h, (k.load m t h).ops = (k.load m' t h).ops
  ssig0' : ∀ x x', (k.ssig0 x).ops = (k.ssig0 x').ops
  ssig1' : ∀ x x', (k.ssig1 x).ops = (k.ssig1 x').ops
  bsig0' : ∀ x x', (k.bsig0 x).ops = (k.bsig0 x').ops
  bsig1' : ∀ x x', (k.bsig1 x).ops = (k.bsig1 x').ops

theorem sha2OK32 : Sha2OK SHA2.cfgO32 := by
  constructor <;> intros <;> rfl

theorem sha2OK64 : Sha2OK SHA2.cfgO64 := by
  constructor <;> intros <;> rfl

section
variable {w B : Nat} {c : SHA2.Cfg w B} {k : SHA2.CfgO c} (ok : Sha2OK k)
include ok

theorem sha2_wTable_value (hl : 16 ≤ 8 * c.loops) (m : Block B) : (SHA2.wTableO k hl m).value = SHA2.wTable c hl m := by
  unfold SHA2.wTableO SHA2.wTable
  have h1 : (Ops.forRange 0 16 (Vector.replicate (8 * c.loops) 0) fun t _ h2 wt => wr "wTable" wt t (k.load m t h2)).value =
      Verif.forRange 0 16 (Vector.replicate (8 * c.loops) 0) fun t _ h2 wt => wt.set t (c.load m t h2) := by
    refine forRange_value (fun t h1 h2 a => ?_) _
    show a.set t (k.load m t h2).value = _
    rw [ok.load]
  rw [value_bind, h1]
  refine forRange_value (fun t h1 h2 a => ?_) _
  show a.set t ((k.ssig1 _).value + _ + (k.ssig0 _).value + _) = _
  rw [ok.ssig1, ok.ssig0]
  rfl

theorem sha2_wTable_same (hl : 16 ≤ 8 * c.loops) (m m' : Block B) : (SHA2.wTableO k hl m).ops = (SHA2.wTableO k hl m').ops := by
  unfold SHA2.wTableO
  same_ops
  · exact ok.load' _ _ _ _
  · exact ok.ssig1' _ _
  · exact ok.ssig0' _ _

theorem sha2_round_value (a b c' d e f g h : BitVec w) (t : Nat) (ht : t < 8 * c.loops) (wt : Vector (BitVec w) (8 * c.loops)) :
    (SHA2.roundO k a b c' d e f g h t ht wt).value = SHA2.round c a b c' d e f g h c.kTable[t] wt[t] := by
  show (d + (h + (k.bsig1 e).value + _ + _ + _), h + (k.bsig1 e).value + _ + _ + _ + ((k.bsig0 a).value + _)) = _
  rw [ok.bsig1, ok.bsig0]
  rfl

theorem sha2_round_same (a b c' d e f g h a' b' c'' d' e' f' g' h' : BitVec w) (t : Nat) (ht : t < 8 * c.loops)
    (wt wt' : Vector (BitVec w) (8 * c.loops)) :
    (SHA2.roundO k a b c' d e f g h t ht wt).ops = (SHA2.roundO k a' b' c'' d' e' f' g' h' t ht wt').ops := by
  unfold SHA2.roundO SHA2.chO SHA2.majO
  same_ops
  · exact ok.bsig1' _ _
  · exact ok.bsig0' _ _

theorem sha2_eight_value (wt : Vector (BitVec w) (8 * c.loops)) (t : Nat) (ht : t < c.loops) (s : SHA2.Regs w) :
    (SHA2.eightRoundsO k wt t ht s).value = SHA2.eightRounds c wt t ht s := by
  unfold SHA2.eightRoundsO SHA2.eightRounds
  iterate 8 refine value_step (sha2_round_value ok _ _ _ _ _ _ _ _ _ _ _) ?_
  generalize SHA2.round c = r
  rfl

theorem sha2_eight_same (wt wt' : Vector (BitVec w) (8 * c.loops)) (t : Nat) (ht : t < c.loops) (s s' : SHA2.Regs w) :
    (SHA2.eightRoundsO k wt t ht s).ops = (SHA2.eightRoundsO k wt' t ht s').ops := by
  unfold SHA2.eightRoundsO
  same_ops
  all_goals exact sha2_round_same ok _ _ _ _ _ _ _ _ _ _ _ _ _ _ _ _ _ _ _ _

theorem sha2 (hl : 16 ≤ 8 * c.loops) : Steady (SHA2.compress c hl) (SHA2.compressO k hl) where
  value := fun s m => by
    unfold SHA2.compressO SHA2.compress
    simp only [value_bind, sha2_wTable_value ok, forRange_value (f := fun t _ ht s => SHA2.eightRounds c (SHA2.wTable c hl m) t ht s)
      (fun t h1 h2 a => sha2_eight_value ok (SHA2.wTable c hl m) t h2 a)]
    rfl
  same := fun s m s' m' => by
    unfold SHA2.compressO
    same_ops
    · exact sha2_wTable_same ok hl m m'
    · exact sha2_eight_same ok _ _ _ _ _ _

end

/-! ### MD4, MD5 -/

theorem md4_exec_value (m : Block 64) (s : Vector W32 4) (q : MD4.Call) : (MD4.execO m s q).value = MD4.exec m s q := by
  rcases q with ⟨rnd, a, b, c, d, k, s⟩
  cases rnd <;> rfl

theorem md4_exec_same (m m' : Block 64) (s s' : Vector W32 4) (q : MD4.Call) : (MD4.execO m s q).ops = (MD4.execO m' s' q).ops := by
  rcases q with ⟨rnd, a, b, c, d, k, s⟩
  unfold MD4.execO
  cases rnd <;> (dsimp only; same_ops)

theorem md4 : Steady MD4.compress MD4.compressO where
  value := fun s m => by
    unfold MD4.compressO MD4.compress
    simp only [value_bind, fold_value (md4_exec_value m)]
    rfl
  same := fun s m s' m' => by
    unfold MD4.compressO
    same_ops
    exact md4_exec_same _ _ _ _ _

theorem md5_exec_value (m : Block 64) (s : Vector W32 4) (q : MD5.Call) : (MD5.execO m s q).value = MD5.exec m s q := by
  unfold MD5.execO
  cases h : q.func <;> (unfold MD5.exec; rw [h]; rfl)

theorem md5_exec_same (m m' : Block 64) (s s' : Vector W32 4) (q : MD5.Call) : (MD5.execO m s q).ops = (MD5.execO m' s' q).ops := by
  unfold MD5.execO
  cases h : q.func <;> (unfold MD5.Fn.applyO; dsimp only; same_ops)

theorem md5 : Steady MD5.compress MD5.compressO where
  value := fun s m => by
    unfold MD5.compressO MD5.compress
    simp only [value_bind, fold_value (md5_exec_value m)]
    rfl
  same := fun s m s' m' => by
    unfold MD5.compressO
    same_ops
    exact md5_exec_same _ _ _ _ _

/-! ### RIPEMD -/

theorem ripemd_fn_value (f : RIPEMD.Fn) (x y z : W32) : (RIPEMD.fnO f x y z).value = RIPEMD.fn f x y z := by
  cases f <;> rfl

theorem ripemd_fn_same (f : RIPEMD.Fn) (x y z x' y' z' : W32) : (RIPEMD.fnO f x y z).ops = (RIPEMD.fnO f x' y' z').ops := by
  cases f <;> rfl

theorem line4_value (m : Block 64) (v : Vector W32 4) (q : RIPEMD.Call4) : (RIPEMD.line4O m v q).value = RIPEMD.line4 m v q := by
  unfold RIPEMD.line4
  rw [← ripemd_fn_value]
  rfl

theorem line4_same (m m' : Block 64) (v v' : Vector W32 4) (q : RIPEMD.Call4) : (RIPEMD.line4O m v q).ops = (RIPEMD.line4O m' v' q).ops := by
  unfold RIPEMD.line4O
  same_ops
  exact ripemd_fn_same _ _ _ _ _ _ _

theorem line5_value (m : Block 64) (v : Vector W32 5) (q : RIPEMD.Call5) : (RIPEMD.line5O m v q).value = RIPEMD.line5 m v q := by
  unfold RIPEMD.line5
  rw [← ripemd_fn_value]
  rfl

theorem line5_same (m m' : Block 64) (v v' : Vector W32 5) (q : RIPEMD.Call5) : (RIPEMD.line5O m v q).ops = (RIPEMD.line5O m' v' q).ops := by
  unfold RIPEMD.line5O
  same_ops
  exact ripemd_fn_same _ _ _ _ _ _ _

theorem ripemd_exec_value {C V : Type} {g : V → C → Ops V} {f : V → C → V} (h : ∀ v q, (g v q).value = f v q) (s : V × V)
    (q : RIPEMD.Stmt C) : (RIPEMD.execO g s q).value = RIPEMD.exec f s q := by
  cases q with
  | left q => show ((g s.1 q).value, s.2) = _; rw [h]; rfl
  | right q => show (s.1, (g s.2 q).value) = _; rw [h]; rfl

theorem ripemd_exec_same {C V : Type} {g g' : V → C → Ops V} (h : ∀ v v' q, (g v q).ops = (g' v' q).ops) (s s' : V × V)
    (q : RIPEMD.Stmt C) : (RIPEMD.execO g s q).ops = (RIPEMD.execO g' s' q).ops := by
  cases q with
  | left q => exact same_bind (h _ _ _) fun _ _ => rfl
  | right q => exact same_bind (h _ _ _) fun _ _ => rfl

theorem ripemd128 : Steady RIPEMD.compress128 RIPEMD.compress128O where
  value := fun s m => by
    unfold RIPEMD.compress128O RIPEMD.compress128
    simp only [value_bind, fold_value (ripemd_exec_value (line4_value m))]
    rfl
  same := fun s m s' m' => by
    unfold RIPEMD.compress128O
    same_ops
    exact ripemd_exec_same (line4_same m m') _ _ _

theorem ripemd160 : Steady RIPEMD.compress160 RIPEMD.compress160O where
  value := fun s m => by
    unfold RIPEMD.compress160O RIPEMD.compress160
    simp only [value_bind, fold_value (ripemd_exec_value (line5_value m))]
    rfl
  same := fun s m s' m' => by
    unfold RIPEMD.compress160O
    same_ops
    exact ripemd_exec_same (line5_same m m') _ _ _

theorem ripemd256 : Steady RIPEMD.compress256 RIPEMD.compress256O where
  value := fun s m => by
    unfold RIPEMD.compress256O RIPEMD.compress256
    simp only [value_bind, fold_value (ripemd_exec_value (line4_value m))]
    rfl
  same := fun s m s' m' => by
    unfold RIPEMD.compress256O
    same_ops
    all_goals exact ripemd_exec_same (line4_same m m') _ _ _

theorem ripemd320 : Steady RIPEMD.compress320 RIPEMD.compress320O where
  value := fun s m => by
    unfold RIPEMD.compress320O RIPEMD.compress320
    simp only [value_bind, fold_value (ripemd_exec_value (line5_value m))]
    rfl
  same := fun s m s' m' => by
    unfold RIPEMD.compress320O
    same_ops
    all_goals exact ripemd_exec_same (line5_same m m') _ _ _

/-! ### HAS-160 -/

theorem has_exec_value (xt : Vector W32 20) (r : Vector W32 5) (q : HAS160.Call) :
    (HAS160.execO xt r q).value = HAS160.exec xt r q := by
  rcases q with ⟨rnd, a, b, c, d, e, s1, t⟩
  cases rnd <;> rfl

theorem has_exec_same (xt xt' : Vector W32 20) (r r' : Vector W32 5) (q : HAS160.Call) :
    (HAS160.execO xt r q).ops = (HAS160.execO xt' r' q).ops := by
  unfold HAS160.execO
  cases h : q.rnd <;> (unfold HAS160.fnO; dsimp only; same_ops)

theorem has_load_value (m : Block 64) : (HAS160.loadXO m).value = HAS160.loadX m := forRange_value (fun _ _ _ _ => rfl) _

theorem has_extend_value (n : Nat) (h : n + 19 < 80) (xt : Vector W32 20) : (HAS160.extendO n h xt).value = HAS160.extend n h xt := rfl

theorem has_extend_same (n : Nat) (h : n + 19 < 80) (xt xt' : Vector W32 20) :
    (HAS160.extendO n h xt).ops = (HAS160.extendO n h xt').ops := by
  unfold HAS160.extendO
  same_ops

theorem has_rounds_value (xt : Vector W32 20) (r : Vector W32 5) : (HAS160.roundsO xt r).value = HAS160.rounds xt r := by
  unfold HAS160.roundsO HAS160.rounds
  simp only [value_bind, has_extend_value, fold_value (has_exec_value _)]

theorem has_rounds_same (xt xt' : Vector W32 20) (r r' : Vector W32 5) : (HAS160.roundsO xt r).ops = (HAS160.roundsO xt' r').ops := by
  unfold HAS160.roundsO
  same_ops
  all_goals first
    | exact has_extend_same _ _ _ _
    | exact has_exec_same _ _ _ _ _

theorem has160 : Steady HAS160.compress HAS160.compressO where
  value := fun s m => by
    unfold HAS160.compressO HAS160.compress
    simp only [value_bind, has_load_value, has_rounds_value]
    rfl
  same := fun s m s' m' => by
    unfold HAS160.compressO HAS160.loadXO
    same_ops
    exact has_rounds_same _ _ _ _

/-! ### HAS-V -/

theorem hasv_fn_value (f : Fin 5) (x y z u : W32) : (HASV.fnO f (var x) (var y) (var z) (var u)).value = HASV.fn f x y z u := by
  match f with
  | 0 | 1 | 2 | 3 | 4 => rfl

theorem hasv_fn_same (f : Fin 5) (x y z u x' y' z' u' : W32) : (HASV.fnO f (var x) (var y) (var z) (var u)).ops =
    (HASV.fnO f (var x') (var y') (var z') (var u')).ops := by
  match f with
  | 0 | 1 | 2 | 3 | 4 => rfl

theorem hasv_line_value (name : String) (t : Vector W32 20) (a b c d e : Fin 10) (f : Fin 5) (k : W32) (j : Fin 100)
    (r : Vector W32 10) : (HASV.lineO name t a b c d e f k j r).value = HASV.line t a b c d e f k j r := by
  unfold HASV.line
  rw [← hasv_fn_value]
  rfl

theorem hasv_line_same (name : String) (t t' : Vector W32 20) (a b c d e : Fin 10) (f : Fin 5) (k : W32) (j : Fin 100)
    (r r' : Vector W32 10) : (HASV.lineO name t a b c d e f k j r).ops = (HASV.lineO name t' a b c d e f k j r').ops := by
  unfold HASV.lineO
  same_ops
  exact hasv_fn_same _ _ _ _ _ _ _ _ _

theorem hasv_exec_value (s : HASV.Vars) (q : HASV.Stmt) : (HASV.execO s q).value = HASV.exec s q := by
  rcases q with ⟨_ | _, n⟩ | ⟨_ | _, a, b, c, d, e, f, k, j⟩ | _
  · rfl
  · rfl
  · exact value_step (hasv_line_value _ _ _ _ _ _ _ _ _ _ _) rfl
  · exact value_step (hasv_line_value _ _ _ _ _ _ _ _ _ _ _) rfl
  · rfl

theorem hasv_exec_same (s s' : HASV.Vars) (q : HASV.Stmt) : (HASV.execO s q).ops = (HASV.execO s' q).ops := by
  rcases q with ⟨_ | _, n⟩ | ⟨_ | _, a, b, c, d, e, f, k, j⟩ | _
  · unfold HASV.execO HASV.extendO
    dsimp only
    same_ops
  · unfold HASV.execO HASV.extendO
    dsimp only
    same_ops
  · exact same_bind (hasv_line_same _ _ _ _ _ _ _ _ _ _ _ _ _) fun _ _ => rfl
  · exact same_bind (hasv_line_same _ _ _ _ _ _ _ _ _ _ _ _ _) fun _ _ => rfl
  · rfl

theorem hasv_start_value (h : Vector W32 10) (m : Block 128) : (HASV.startO h m).value = HASV.start h m := by
  unfold HASV.startO HASV.start
  iterate 10 refine value_step rfl ?_
  refine value_step (forRange_value (f := fun i _ hi t => t.set i (Verif.loadLE32 m (0 + i))) (fun _ _ _ _ => rfl) _) ?_
  refine value_step (forRange_value (f := fun i _ hi t => t.set i (Verif.loadLE32 m (16 + i))) (fun _ _ _ _ => rfl) _) ?_
  show HASV.Vars.mk _ _ _ = _
  congr 1
  apply Vector.ext
  intro i hi
  have : i = 0 ∨ i = 1 ∨ i = 2 ∨ i = 3 ∨ i = 4 ∨ i = 5 ∨ i = 6 ∨ i = 7 ∨ i = 8 ∨ i = 9 := by omega
  rcases this with rfl | rfl | rfl | rfl | rfl | rfl | rfl | rfl | rfl | rfl <;> rfl

theorem hasv : Steady HASV.compress HASV.compressO where
  value := fun s m => by
    unfold HASV.compressO HASV.compress
    refine value_step (hasv_start_value s m) ?_
    refine value_step (fold_value hasv_exec_value _ _) ?_
    rfl
  same := fun s m s' m' => by
    unfold HASV.compressO HASV.startO
    same_ops
    exact hasv_exec_same _ _ _

/-! ### SM3 -/

theorem sm3_expand_value (m : Block 64) : (SM3.expandO m).value = SM3.expand m := by
  unfold SM3.expandO SM3.expand
  have h1 : (Ops.forRange 0 16 (Vector.replicate 68 0) fun t _ h w => wr "expanedMsg" w t (Ops.loadBE32 m t)).value =
      Verif.forRange 0 16 (Vector.replicate 68 0) fun t _ h w => w.set t (Verif.loadBE32 m t) :=
    forRange_value (fun _ _ _ _ => rfl) _
  rw [value_bind, h1]
  exact forRange_value (fun _ _ _ _ => rfl) _

theorem sm3_expand_same (m m' : Block 64) : (SM3.expandO m).ops = (SM3.expandO m').ops := by
  unfold SM3.expandO SM3.permutation1O
  same_ops

theorem sm3_exec_value (w : Vector W32 68) (r : Vector W32 4 × Vector W32 4) (q : SM3.Call) :
    (SM3.execO w r q).value = SM3.exec w r q := by
  rcases q with ⟨rnd, a, b, c, d, e, f, g, h, t, k⟩
  cases rnd <;> rfl

theorem sm3_exec_same (w w' : Vector W32 68) (r r' : Vector W32 4 × Vector W32 4) (q : SM3.Call) :
    (SM3.execO w r q).ops = (SM3.execO w' r' q).ops := by
  unfold SM3.execO SM3.permutation0O
  cases h : q.rnd <;> (unfold SM3.ffO SM3.ggO; dsimp only; same_ops)

theorem sm3 : Steady SM3.compress SM3.compressO where
  value := fun s m => by
    unfold SM3.compressO SM3.compress
    simp only [value_bind, sm3_expand_value, fold_value (sm3_exec_value _)]
    rfl
  same := fun s m s' m' => by
    unfold SM3.compressO
    same_ops
    · exact sm3_expand_same _ _
    · exact sm3_exec_same _ _ _ _ _

end Verif.Proof.Ops
