import Verif.Model.Ops
import Verif.Proof.Work

/-! The operations of the block functions do not depend on the data. -/

namespace Verif.Proof.Ops
open Verif Verif.Ops Model Proof.Work

theorem oblivious {O O' : Type} {A : API O} {L : API O'} {real : O' → O} {log : O' → List Instr}
    (h : A.SameBut L real ∧ L.SameOps L log) : A.Oblivious L real log := ⟨h.1, h.2⟩

/-! ## Values and lists of operations -/

section
variable {α β : Type}

theorem same_bind {x x' : Ops α} {f f' : α → Ops β} (h : x.ops = x'.ops) (hf : ∀ a a', (f a).ops = (f' a').ops) :
    (x >>= f).ops = (x' >>= f').ops := by
  show x.ops ++ _ = x'.ops ++ _
  rw [h, hf x.value x'.value]

theorem value_bind (x : Ops α) (f : α → Ops β) : (x >>= f).value = (f x.value).value := rfl

theorem fold_value {g : α → β → Ops α} {f : α → β → α} (h : ∀ a b, (g a b).value = f a b) (l : List β) :
    ∀ a, (fold g l a).value = l.foldl f a := by
  induction l with
  | nil => intro a; rfl
  | cons b l ih =>
    intro a
    show (fold g l (g a b).value).value = _
    rw [ih, h]
    rfl

theorem fold_same {g g' : α → β → Ops α} (h : ∀ a a' b, (g a b).ops = (g' a' b).ops) (l : List β) :
    ∀ a a', (fold g l a).ops = (fold g' l a').ops := by
  induction l with
  | nil => intro a a'; rfl
  | cons b l ih => intro a a'; exact same_bind (h a a' b) ih

theorem forRange_value {lo hi : Nat} {g : (t : Nat) → lo ≤ t → t < hi → α → Ops α}
    {f : (t : Nat) → lo ≤ t → t < hi → α → α} (h : ∀ t h1 h2 a, (g t h1 h2 a).value = f t h1 h2 a) (a : α) :
    (Ops.forRange lo hi a g).value = Verif.forRange lo hi a f := by
  unfold Ops.forRange Verif.forRange
  have : ∀ n (hn : n ≤ hi - lo),
      (Nat.fold n (fun i h s => s >>= g (lo + i) (by omega) (by omega)) (⟨a, []⟩ : Ops α)).value =
        Nat.fold n (fun i h s => f (lo + i) (by omega) (by omega) s) a := by
    intro n
    induction n with
    | zero => intro _; rfl
    | succ n ih =>
      intro hn
      rw [Nat.fold_succ, Nat.fold_succ, value_bind, h, ih (by omega)]
  exact this _ (Nat.le_refl _)

theorem forRange_same {lo hi : Nat} {g g' : (t : Nat) → lo ≤ t → t < hi → α → Ops α}
    (h : ∀ t h1 h2 a a', (g t h1 h2 a).ops = (g' t h1 h2 a').ops) (a a' : α) :
    (Ops.forRange lo hi a g).ops = (Ops.forRange lo hi a' g').ops := by
  unfold Ops.forRange
  have : ∀ n (hn : n ≤ hi - lo),
      (Nat.fold n (fun i h s => s >>= g (lo + i) (by omega) (by omega)) (⟨a, []⟩ : Ops α)).ops =
        (Nat.fold n (fun i h s => s >>= g' (lo + i) (by omega) (by omega)) (⟨a', []⟩ : Ops α)).ops := by
    intro n
    induction n with
    | zero => intro _; rfl
    | succ n ih =>
      intro hn
      rw [Nat.fold_succ, Nat.fold_succ]
      exact same_bind (ih (by omega)) (h _ _ _)
  exact this _ (Nat.le_refl _)

end

/-! ## Two runs side by side -/

section
variable {α α' β β' : Type} {R : α → α' → Prop} {Q : β → β' → Prop}

theorem both_bind {x : Except Fault α} {y : Except Fault α'} {f : α → Except Fault β} {g : α' → Except Fault β'}
    (h : Both R x y) (hf : ∀ a b, R a b → Both Q (f a) (g b)) : Both Q (x >>= f) (y >>= g) := by
  cases x with
  | error e => cases y with
    | error e' => exact h
    | ok b => exact h.elim
  | ok a => cases y with
    | error e' => exact h.elim
    | ok b => exact hf a b h

theorem both_ok {a : α} {b : α'} (h : R a b) : Both R (.ok a) (.ok b) := h

theorem both_imp {x : Except Fault α} {y : Except Fault α'} {R' : α → α' → Prop} (hR : ∀ a b, R a b → R' a b)
    (h : Both R x y) : Both R' x y := by
  cases x with
  | error e => cases y with
    | error e' => exact h
    | ok b => exact h
  | ok a => cases y with
    | error e' => exact h
    | ok b => exact hR a b h

end

section
variable {N : Nat}

/-- equally many bytes -/
def SameSize (b b' : Buffer N) : Prop := b.size = b'.size

theorem fillLoop_size (x : Byte) : ∀ (n : Nat) (b : Buffer N), (Buffer.fillLoop x n b).endIdx = b.endIdx + n := by
  intro n
  induction n with
  | zero => intro b; rfl
  | succ n ih => intro b; rw [Buffer.fillLoop, ih]; show b.endIdx + 1 + n = _; omega

theorem fill_same {b b' : Buffer N} (h : SameSize b b') (x x' : Byte) (n : Nat) :
    Both SameSize (b.fill x n) (b'.fill x' n) := by
  have h' : b.endIdx = b'.endIdx := h
  unfold Buffer.fill
  rw [h']
  split
  · show (Buffer.fillLoop x n b).endIdx = (Buffer.fillLoop x' n b').endIdx
    rw [fillLoop_size, fillLoop_size, h']
  · rfl

theorem pushBack_same (l l' : List Byte) (hl : l.length = l'.length) : ∀ {b b' : Buffer N}, SameSize b b' →
    Both SameSize (b.pushBack l) (b'.pushBack l') := by
  induction l generalizing l' with
  | nil =>
    intro b b' h
    cases l' with
    | nil => exact h
    | cons => cases hl
  | cons x l ih =>
    intro b b' h
    cases l' with
    | nil => cases hl
    | cons x' l' => exact both_bind (fill_same h x x' 1) fun _ _ h => ih l' (by simpa using hl) h

theorem ofRange_same {l l' : List Byte} (hl : l.length = l'.length) :
    Both SameSize (Buffer.ofRange l : Except Fault (Buffer N)) (Buffer.ofRange l') := pushBack_same l l' hl rfl

theorem setAt_same {b b' : Buffer N} (h : SameSize b b') (pos : Nat) (x x' : Byte) :
    Both SameSize (b.setAt pos x) (b'.setAt pos x') := by
  unfold Buffer.setAt
  split
  · exact h
  · rfl

theorem getAt_same (b b' : Buffer N) (pos : Nat) : Both (fun _ _ => True) (b.getAt pos) (b'.getAt pos) := by
  unfold Buffer.getAt
  split
  · trivial
  · rfl

theorem writeLoop_same (ws : List (Nat × Byte)) : ∀ {b b' : Buffer N}, SameSize b b' →
    Both SameSize (writeLoop b ws) (writeLoop b' ws) := by
  induction ws with
  | nil => intro b b' h; exact h
  | cons w ws ih =>
    intro b b' h
    show Both _ (b.setAt w.1 w.2 >>= _) (b'.setAt w.1 w.2 >>= _)
    exact both_bind (setAt_same h _ _ _) fun _ _ h => ih h

theorem contents_same {b b' : Buffer N} (h : SameSize b b') : b.contents.length = b'.contents.length := by
  have h' : b.endIdx = b'.endIdx := h
  simp [Buffer.contents, h']

theorem spanFirst_same {d d' : List Byte} (h : d.length = d'.length) (n : Nat) :
    Both (fun a b => a.length = b.length) (spanFirst d n) (spanFirst d' n) := by
  unfold spanFirst
  rw [h]
  split
  · show (d.take n).length = (d'.take n).length
    simp [h]
  · rfl

theorem spanSub_same {d d' : List Byte} (h : d.length = d'.length) (n : Nat) :
    Both (fun a b => a.length = b.length) (spanSub d n) (spanSub d' n) := by
  unfold spanSub
  rw [h]
  split
  · show (d.drop n).length = (d'.drop n).length
    simp [h]
  · rfl

theorem blockAt_same {d d' : List Byte} (h : d.length = d'.length) (B n : Nat) :
    Both (fun _ _ => True) (blockAt B d n) (blockAt B d' n) := by
  unfold blockAt
  by_cases hn : n + B ≤ d.length
  · rw [dif_pos hn, dif_pos (h ▸ hn)]; trivial
  · rw [dif_neg hn, dif_neg (h ▸ hn)]; rfl

end

section
variable {N B : Nat} {S S' : Type} {RS : S → S' → Prop} {impl : S → List Byte → Except Fault S}
  {impl' : S' → List Byte → Except Fault S'}

theorem forBlocks_same {body : S → Block B → S} {body' : S' → Block B → S'}
    (h : ∀ s s' m m', RS s s' → RS (body s m) (body' s' m')) {d d' : List Byte} (hd : d.length = d'.length) {s : S} {s' : S'}
    (hs : RS s s') : Both RS (forBlocks B body d s) (forBlocks B body' d' s') := by
  unfold forBlocks
  rw [hd]
  generalize List.range (d'.length / B) = l
  induction l generalizing s s' with
  | nil => exact hs
  | cons i l ih =>
    rw [List.foldlM_cons, List.foldlM_cons]
    refine both_bind (R := RS) ?_ fun _ _ h => ih h
    exact both_bind (blockAt_same hd B _) fun _ _ _ => h _ _ _ _ hs

/-- equally many bytes in the buffers, related chaining parts -/
structure SameObj (RS : S → S' → Prop) (o : Obj N S) (o' : Obj N S') : Prop where
  buffer : SameSize o.buffer o'.buffer
  chain : RS o.chain o'.chain

/-- what is asked of two `addDataImpl`s -/
def SameImpl (RS : S → S' → Prop) (impl : S → List Byte → Except Fault S) (impl' : S' → List Byte → Except Fault S') : Prop :=
  ∀ s s' d d', d.length = d'.length → RS s s' → Both RS (impl s d) (impl' s' d')

theorem addDataTail_same (h : SameImpl RS impl impl') {o : Obj N S} {o' : Obj N S'} (ho : SameObj RS o o')
    {d d' : List Byte} (hd : d.length = d'.length) :
    Both (SameObj RS) (Verif.addDataTail B impl o d) (Verif.addDataTail B impl' o' d') := by
  unfold Verif.addDataTail
  dsimp only
  rw [hd]
  split
  · exact both_bind (ofRange_same hd) fun b b' hb => ⟨hb, ho.chain⟩
  · refine both_bind (spanFirst_same hd _) fun x x' hx => ?_
    refine both_bind (h _ _ _ _ hx ho.chain) fun c c' hc => ?_
    split
    · exact both_bind (ofRange_same (by simp [hd])) fun b b' hb => ⟨hb, hc⟩
    · exact ⟨ho.buffer, hc⟩

theorem addData_same (h : SameImpl RS impl impl') {o : Obj N S} {o' : Obj N S'} (ho : SameObj RS o o')
    {d d' : List Byte} (hd : d.length = d'.length) :
    Both (SameObj RS) (Verif.addData B impl o d) (Verif.addData B impl' o' d') := by
  unfold Verif.addData
  have e1 : o.buffer.size = o'.buffer.size := ho.buffer
  have e2 : o.buffer.empty = o'.buffer.empty := by
    have : o.buffer.endIdx = o'.buffer.endIdx := e1
    unfold Buffer.empty
    rw [this]
  dsimp only
  rw [e1, e2, hd]
  split
  · refine both_bind (pushBack_same _ _ (by simp [hd]) ho.buffer) fun b b' hb => ?_
    have e3 : b.size = b'.size := hb
    rw [e3]
    split
    · exact ⟨hb, ho.chain⟩
    · refine both_bind (h _ _ _ _ (contents_same hb) ho.chain) fun c c' hc => ?_
      refine both_bind (spanSub_same hd _) fun x x' hx => ?_
      exact addDataTail_same h (o := ⟨b.clear, c⟩) (o' := ⟨b'.clear, c'⟩) ⟨rfl, hc⟩ hx
  · exact addDataTail_same h ho hd

theorem addDataTail2_same (h : SameImpl RS impl impl') {o : Obj B S} {o' : Obj B S'} (ho : SameObj RS o o')
    {d d' : List Byte} (hd : d.length = d'.length) :
    Both (SameObj RS) (BLAKE2.addDataTail B impl o d) (BLAKE2.addDataTail B impl' o' d') := by
  unfold BLAKE2.addDataTail
  dsimp only
  rw [hd]
  refine both_bind (spanFirst_same hd _) fun x x' hx => ?_
  refine both_bind (h _ _ _ _ hx ho.chain) fun c c' hc => ?_
  exact both_bind (ofRange_same (by simp [hd])) fun b b' hb => ⟨hb, hc⟩

theorem addData2_same (h : SameImpl RS impl impl') (n : Nat) : ∀ {o : Obj B S} {o' : Obj B S'}, SameObj RS o o' →
    ∀ {d d' : List Byte}, d.length = d'.length → d.length = n →
      Both (SameObj RS) (BLAKE2.addData B impl o d) (BLAKE2.addData B impl' o' d') := by
  induction n using Nat.strongRecOn with
  | ind n ih =>
    intro o o' ho d d' hd hn
    rw [BLAKE2.addData, BLAKE2.addData]
    have e1 : o.buffer.size = o'.buffer.size := ho.buffer
    have e2 : o.buffer.empty = o'.buffer.empty := by
      have : o.buffer.endIdx = o'.buffer.endIdx := e1
      unfold Buffer.empty
      rw [this]
    have e0 : d.isEmpty = d'.isEmpty := by
      cases d with
      | nil => cases d' with
        | nil => rfl
        | cons => cases hd
      | cons => cases d' with
        | nil => cases hd
        | cons => rfl
    rw [e0, e1, e2, hd]
    split
    · exact ho
    · split
      · refine both_bind (h _ _ _ _ (contents_same ho.buffer) ho.chain) fun c c' hc => ?_
        exact addDataTail2_same h (o := ⟨o.buffer.clear, c⟩) (o' := ⟨o'.buffer.clear, c'⟩) ⟨rfl, hc⟩ hd
      · split
        · by_cases h3 : min (B - o'.buffer.size) d'.length = 0
          · simp only [h3, if_true]; rfl
          · simp only [h3, if_false]
            have hp := pushBack_same (d.take (min (B - o'.buffer.size) d'.length))
              (d'.take (min (B - o'.buffer.size) d'.length)) (by simp [hd]) ho.buffer
            cases hx : o.buffer.pushBack (d.take (min (B - o'.buffer.size) d'.length)) with
            | error e =>
              cases hy : o'.buffer.pushBack (d'.take (min (B - o'.buffer.size) d'.length)) with
              | error e' => rw [hx, hy] at hp; exact hp
              | ok b' => rw [hx, hy] at hp; exact hp.elim
            | ok b =>
              cases hy : o'.buffer.pushBack (d'.take (min (B - o'.buffer.size) d'.length)) with
              | error e' => rw [hx, hy] at hp; exact hp.elim
              | ok b' =>
                rw [hx, hy] at hp
                exact ih _ (by rw [List.length_drop]; omega) (o := ⟨b, o.chain⟩) (o' := ⟨b', o'.chain⟩) ⟨hp, ho.chain⟩
                  (by simp [hd]) rfl
        · exact addDataTail2_same h ho hd

/-- two classes step by step -/
structure Parallel {O : Type} (A A' : API O) (R : O → O → Prop) : Prop where
  fresh : R A.fresh A'.fresh
  reset : ∀ o o', R o o' → R (A.reset o) (A'.reset o')
  add : ∀ o o' d d', d.length = d'.length → R o o' → Both R (A.addData o d) (A'.addData o' d')
  fin : ∀ o o', R o o' → Both R (A.finalize o) (A'.finalize o')

theorem Parallel.run {O : Type} {A A' : API O} {R : O → O → Prop} (h : Parallel A A' R) {ops ops' : List Op}
    (hs : ops.map Op.shape = ops'.map Op.shape) : Both R (A.run A.fresh ops) (A'.run A'.fresh ops') := by
  have : ∀ (ops ops' : List Op), ops.map Op.shape = ops'.map Op.shape → ∀ o o', R o o' →
      Both R (A.run o ops) (A'.run o' ops') := by
    intro ops
    induction ops with
    | nil =>
      intro ops' hs o o' ho
      cases ops' with
      | nil => exact ho
      | cons => cases hs
    | cons op ops ih =>
      intro ops' hs o o' ho
      cases ops' with
      | nil => cases hs
      | cons op' ops' =>
        have h1 := (List.cons.inj hs).1
        have h2 := (List.cons.inj hs).2
        refine both_bind (R := R) ?_ fun _ _ h => ih ops' h2 _ _ h
        cases op with
        | add d => cases op' with
          | add d' => exact h.add o o' d d' (Shape.add.inj h1) ho
          | reset => cases h1
          | finalize => cases h1
        | reset => cases op' with
          | add d' => cases h1
          | reset => exact h.reset o o' ho
          | finalize => cases h1
        | finalize => cases op' with
          | add d' => cases h1
          | reset => cases h1
          | finalize => exact h.fin o o' ho
  exact this ops ops' hs _ _ h.fresh

theorem Parallel.same {O : Type} {A A' : API O} {R : O → O → Prop} (h : Parallel A A' R) {log : O → List Instr}
    (hl : ∀ o o', R o o' → log o = log o') : A.SameOps A' log := fun _ _ hs => both_imp hl (h.run hs)

end

/-! ## The log on the side -/

theorem foldlM_logged {S I M : Type} (g : S → M → Ops S) (f : S → M → S) (h : ∀ s m, (g s m).value = f s m)
    (at_ : I → Except Fault M) (l : List I) : ∀ s : S × List Instr,
      l.foldlM (fun s i => do let m ← at_ i; pure (f s m)) s.1 =
        (l.foldlM (fun s i => do let m ← at_ i; pure (logged g s m)) s).map Prod.fst := by
  induction l with
  | nil => intro s; rfl
  | cons i l ih =>
    intro s
    rw [List.foldlM_cons, List.foldlM_cons]
    cases at_ i with
    | error e => rfl
    | ok m =>
      show List.foldlM _ (f s.1 m) l = Except.map _ (List.foldlM _ (logged g s m) l)
      rw [← ih]
      show _ = List.foldlM _ (g s.1 m).value l
      rw [h]

theorem forBlocks_logged {S : Type} {B : Nat} {g : S → Block B → Ops S} {f : S → Block B → S}
    (h : ∀ s m, (g s m).value = f s m) (d : List Byte) (s : S × List Instr) :
    forBlocks B f d s.1 = (forBlocks B (logged g) d s).map Prod.fst := foldlM_logged g f h _ _ s

theorem logged_same {S M : Type} {g : S → M → Ops S} (h : ∀ s m s' m', (g s m).ops = (g s' m').ops) (s s' : S × List Instr)
    (m m' : M) (hs : s.2 = s'.2) : (logged g s m).2 = (logged g s' m').2 := by
  show s.2 ++ _ = s'.2 ++ _
  rw [hs, h s.1 m s'.1 m']

theorem logged_view {S M : Type} {g : S → M → Ops S} {q : Instr → Instr}
    (h : ∀ s m s' m', (g s m).ops.map q = (g s' m').ops.map q) (s s' : S × List Instr)
    (m m' : M) (hs : s.2.map q = s'.2.map q) : (logged g s m).2.map q = (logged g s' m').2.map q := by
  show (s.2 ++ _).map q = (s'.2 ++ _).map q
  rw [List.map_append, List.map_append, hs, h s.1 m s'.1 m']

/-! ## The Merkle-Damgård style classes -/

section MD
variable {C H : Type} {B L : Nat}

theorem mdNatural {cnt : Counter C} {f : H → Block B → H} {g : H → Block B → Ops H} (h : ∀ s m, (g s m).value = f s m) (pb : Byte) (iv : H)
    (out : H → Except Fault (List Byte)) :
    Natural (mdApi B L pb cnt f iv out) (mdApiO B L pb cnt g iv out) mdUnlogged := by
  have hi : ∀ (s : MDState C (H × List Instr)) d,
      mdImpl B cnt f ⟨s.sizeCounter, s.h.1⟩ d = (mdImpl B cnt (logged g) s d).map (fun s => ⟨s.sizeCounter, s.h.1⟩) := by
    intro s d
    unfold mdImpl
    dsimp only
    split
    · rfl
    · show forBlocks B f d s.h.1 >>= _ = (forBlocks B (logged g) d s.h >>= _).map _
      rw [forBlocks_logged h, bind_map, map_bind]
      rfl
  refine ⟨rfl, fun o => rfl, fun o d => addData_nat (f := fun s : MDState C (H × List Instr) =>
    (⟨s.sizeCounter, s.h.1⟩ : MDState C H)) hi o d, fun o => ?_⟩
  show mdFinalize B L pb cnt.add cnt.post cnt.writes (mdImpl B cnt f) (mdUnlogged o) = (mdFinalize B L pb cnt.add cnt.post cnt.writes (mdImpl B cnt (logged g)) o).map _
  unfold mdFinalize
  dsimp only
  rw [map_bind]
  refine Work.bind_congr fun b => ?_
  rw [map_bind]
  refine Work.bind_congr fun b => ?_
  rw [map_bind]
  refine Work.bind_congr fun b => ?_
  rw [map_bind]
  show mdImpl B cnt f ⟨_, _⟩ _ >>= _ = _
  have := hi { o.chain with sizeCounter := cnt.post (cnt.add o.chain.sizeCounter o.buffer.size) } b.contents
  refine Eq.trans (congrArg (· >>= _) this) ?_
  rw [bind_map]
  rfl

theorem mdParallel (cnt : Counter C) {g : H → Block B → Ops H} {q : Instr → Instr}
    (h : ∀ s m s' m', (g s m).ops.map q = (g s' m').ops.map q) (pb : Byte) (iv : H)
    (out : H → Except Fault (List Byte)) :
    Parallel (mdApiO B L pb cnt g iv out) (mdApiO B L pb cnt g iv out)
      (SameObj fun s s' => s.sizeCounter = s'.sizeCounter ∧ s.h.2.map q = s'.h.2.map q) := by
  have hi : SameImpl (fun s s' : MDState C (H × List Instr) => s.sizeCounter = s'.sizeCounter ∧ s.h.2.map q = s'.h.2.map q)
      (mdImpl B cnt (logged g)) (mdImpl B cnt (logged g)) := by
    intro s s' d d' hd hs
    unfold mdImpl
    dsimp only
    rw [hd]
    split
    · rfl
    · refine both_bind (forBlocks_same (RS := fun a b => a.2.map q = b.2.map q) (logged_view h · · · · ·) hd hs.2) fun a b hab => ?_
      exact ⟨by rw [hs.1], hab⟩
  refine ⟨⟨rfl, rfl, rfl⟩, fun o o' ho => ⟨rfl, rfl, ho.chain.2⟩, fun o o' d d' hd ho => addData_same hi ho hd, fun o o' ho => ?_⟩
  show Both _ (mdFinalize _ _ _ _ _ _ _ o) (mdFinalize _ _ _ _ _ _ _ o')
  unfold mdFinalize
  dsimp only
  have e1 : o.buffer.size = o'.buffer.size := ho.buffer
  rw [e1, ho.chain.1]
  refine both_bind (fill_same ho.buffer _ _ _) fun b b' hb => ?_
  have e2 : b.size = b'.size := hb
  rw [e2]
  refine both_bind (fill_same hb _ _ _) fun b b' hb => ?_
  have e3 : b.size = b'.size := hb
  rw [e3]
  refine both_bind (writeLoop_same _ hb) fun b b' hb => ?_
  refine both_bind (hi _ _ _ _ (contents_same hb) ⟨rfl, ho.chain.2⟩) fun c c' hc => ?_
  exact ⟨rfl, hc⟩

theorem mdSame (cnt : Counter C) {f : H → Block B → H} {g : H → Block B → Ops H} (h : Steady f g) (pb : Byte) (iv : H)
    (out : H → Except Fault (List Byte)) :
    (mdApi B L pb cnt f iv out).SameBut (mdApiO B L pb cnt g iv out) mdUnlogged ∧
      (mdApiO B L pb cnt g iv out).SameOps (mdApiO B L pb cnt g iv out) (fun o => o.chain.h.2) := by
  refine ⟨(mdNatural h.value pb iv out).same, (mdParallel cnt (q := id) (fun s m s' m' => by rw [h.same s m s' m']) pb iv
    out).same fun o o' ho => ?_⟩
  have := ho.chain.2
  rwa [List.map_id, List.map_id] at this

theorem mdSameButLookups (cnt : Counter C) {f : H → Block B → H} {g : H → Block B → Ops H} (h : SteadyButLookups f g) (pb : Byte)
    (iv : H) (out : H → Except Fault (List Byte)) :
    (mdApi B L pb cnt f iv out).SameBut (mdApiO B L pb cnt g iv out) mdUnlogged ∧
      (mdApiO B L pb cnt g iv out).SameOps (mdApiO B L pb cnt g iv out) (fun o => o.chain.h.2.map Instr.anywhere) :=
  ⟨(mdNatural h.value pb iv out).same, (mdParallel cnt h.same pb iv out).same fun _ _ ho => ho.chain.2⟩

end MD

end Verif.Proof.Ops
