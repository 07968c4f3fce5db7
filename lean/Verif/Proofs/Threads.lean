import Verif.Spec.Threads
import Mathlib.Data.Fintype.BigOperators
import Mathlib.Algebra.BigOperators.Group.Finset.Basic
/-
Threads with separate footprints behave as if each ran alone.
-/
namespace NN
open Finset
variable {F T : Type}

theorem Touches.mono {R W R' W' : Set ℕ} (hR : ∀ a ∈ R, a ∈ R' ∨ a ∈ W') (hW : W ⊆ W') : ∀ {p : Prog F}, Touches R W p → Touches R' W' p
  | .halt, _ => trivial
  | .fault _, _ => trivial
  | .load _ _, h => ⟨h.1.elim (hR _) fun h' => .inr (hW h'), fun v => (h.2 v).mono hR hW⟩
  | .store _ _ _, h => ⟨hW h.1, h.2.mono hR hW⟩

/-- A program changes only what it may store to. -/
theorem Touches.frame {R W : Set ℕ} : ∀ {p : Prog F}, Touches R W p → ∀ {m m' : Mem F}, p.run m = .ok m' → ∀ a, a ∉ W → m' a = m a
  | .halt, _, m, m', h, a, _ => by simp only [Prog.run, Except.ok.injEq] at h; rw [h]
  | .fault _, _, m, m', h, a, _ => by simp [Prog.run] at h
  | .load _ _, ht, m, m', h, a, ha => (ht.2 _).frame h a ha
  | .store b v k, ht, m, m', h, a, ha => by
    have := ht.2.frame h a ha
    rw [this, Function.update_of_ne]
    rintro rfl; exact ha ht.1

/-- It depends only on what it may load. -/
theorem Touches.congr {R W : Set ℕ} : ∀ {p : Prog F}, Touches R W p → ∀ {m n : Mem F}, (∀ a, a ∈ R ∨ a ∈ W → m a = n a) →
    (∀ e, p.run m = .error e → p.run n = .error e) ∧
    ∀ m', p.run m = .ok m' → ∃ n', p.run n = .ok n' ∧ ∀ a, a ∈ R ∨ a ∈ W → m' a = n' a
  | .halt, _, m, n, h => ⟨fun e he => by simp [Prog.run] at he, fun m' hm => ⟨n, rfl, by simp only [Prog.run, Except.ok.injEq] at hm; subst hm; exact h⟩⟩
  | .fault _, _, m, n, h => ⟨fun e he => he, fun m' hm => by simp [Prog.run] at hm⟩
  | .load a k, ht, m, n, h => by
    have := (ht.2 (m a)).congr h
    simp only [Prog.run]
    rw [← h a ht.1]
    exact this
  | .store b v k, ht, m, n, h => by
    refine ht.2.congr (m := Function.update m b v) (n := Function.update n b v) fun a ha => ?_
    by_cases hab : a = b
    · subst hab; simp
    · rw [Function.update_of_ne hab, Function.update_of_ne hab, h a ha]

theorem Touches.andThen {R W : Set ℕ} : ∀ {p q : Prog F}, Touches R W p → Touches R W q → Touches R W (p.andThen q)
  | .halt, _, _, hq => hq
  | .fault _, _, _, _ => trivial
  | .load _ _, _, hp, hq => ⟨hp.1, fun v => (hp.2 v).andThen hq⟩
  | .store _ _ _, _, hp, hq => ⟨hp.1, hp.2.andThen hq⟩

theorem run_andThen : ∀ (p q : Prog F) (m : Mem F), (p.andThen q).run m = (p.run m).bind q.run
  | .halt, _, _ => rfl
  | .fault _, _, _ => rfl
  | .load a k, q, m => run_andThen (k (m a)) q m
  | .store a v k, q, m => run_andThen k q (Function.update m a v)

section
variable [Fintype T] [DecidableEq T]

/-- State `s` was reached in `n` steps from memory `m` and programs `p`: thread `t` has memory `m0 t` in mind. -/
structure Inv (R W : T → Set ℕ) (m : Mem F) (p : T → Prog F) (n : ℕ) (s : State T F) (m0 : T → Mem F) : Prop where
  touches : ∀ t, Touches (R t) (W t) (s.thread t)
  agree : ∀ t a, a ∈ R t ∨ a ∈ W t → m0 t a = s.mem a
  same : ∀ t a, a ∉ W t → m0 t a = m a
  run : ∀ t, (s.thread t).run (m0 t) = (p t).run m
  frame : ∀ a, (∀ t, a ∉ W t) → s.mem a = m a
  count : n + ∑ t, (s.thread t).len (m0 t) = ∑ t, (p t).len m

theorem Inv.step {R W : T → Set ℕ} (hsep : ∀ t u, t ≠ u → ∀ a ∈ W t, a ∉ R u ∧ a ∉ W u) {m : Mem F} {p : T → Prog F} {n : ℕ} {s s' : State T F}
    {m0 : T → Mem F} (hI : Inv R W m p n s m0) (h : Step s s') : ∃ m1, Inv R W m p (n + 1) s' m1 := by
  obtain ⟨ht, ha, hs, hr, hf, hc⟩ := hI
  cases h with
  | load t a k h =>
    have ht' := ht t
    rw [h] at ht'
    have e : m0 t a = s.mem a := ha t a ht'.1
    refine ⟨m0, ⟨fun u => ?_, ha, hs, fun u => ?_, hf, ?_⟩⟩
    · by_cases hu : u = t
      · subst hu; simpa using ht'.2 _
      · simpa [Function.update_of_ne hu] using ht u
    · by_cases hu : u = t
      · subst hu
        rw [← hr u, h]
        simp [Prog.run, e]
      · simpa [Function.update_of_ne hu] using hr u
    · rw [← hc, ← Finset.add_sum_erase _ _ (mem_univ t), ← Finset.add_sum_erase (a := t) univ (fun u => (s.thread u).len (m0 u)) (mem_univ t)]
      have e2 : ∑ x ∈ univ.erase t, (Function.update s.thread t (k (s.mem a)) x).len (m0 x) = ∑ x ∈ univ.erase t, (s.thread x).len (m0 x) :=
        Finset.sum_congr rfl fun u hu => by rw [Function.update_of_ne (Finset.ne_of_mem_erase hu)]
      simp only [e2, Function.update_self, h, Prog.len, e]
      omega
  | store t a v k h =>
    have ht' := ht t
    rw [h] at ht'
    refine ⟨Function.update m0 t (Function.update (m0 t) a v), ⟨fun u => ?_, fun u b hb => ?_, fun u b hb => ?_, fun u => ?_, fun b hb => ?_, ?_⟩⟩
    · by_cases hu : u = t
      · subst hu; simpa using ht'.2
      · simpa [Function.update_of_ne hu] using ht u
    · by_cases hu : u = t
      · subst hu
        by_cases hba : b = a
        · subst hba; simp
        · simp [Function.update_of_ne hba, ha u b hb]
      · have := hsep t u (Ne.symm hu) a ht'.1
        have hba : b ≠ a := by rintro rfl; rcases hb with h' | h' <;> simp_all
        simp [Function.update_of_ne hu, Function.update_of_ne hba, ha u b hb]
    · by_cases hu : u = t
      · subst hu
        have hba : b ≠ a := by rintro rfl; exact hb ht'.1
        simp [Function.update_of_ne hba, hs u b hb]
      · simp [Function.update_of_ne hu, hs u b hb]
    · by_cases hu : u = t
      · subst hu
        rw [← hr u, h]
        simp [Prog.run]
      · simpa [Function.update_of_ne hu] using hr u
    · have hba : b ≠ a := by rintro rfl; exact hb t ht'.1
      simp [Function.update_of_ne hba, hf b hb]
    · rw [← hc, ← Finset.add_sum_erase _ _ (mem_univ t), ← Finset.add_sum_erase (a := t) univ (fun u => (s.thread u).len (m0 u)) (mem_univ t)]
      have e2 : ∑ x ∈ univ.erase t, (Function.update s.thread t k x).len (Function.update m0 t (Function.update (m0 t) a v) x) =
          ∑ x ∈ univ.erase t, (s.thread x).len (m0 x) :=
        Finset.sum_congr rfl fun u hu => by rw [Function.update_of_ne (Finset.ne_of_mem_erase hu), Function.update_of_ne (Finset.ne_of_mem_erase hu)]
      simp only [e2, Function.update_self, h, Prog.len]
      omega

theorem Steps.inv {R W : T → Set ℕ} (hsep : ∀ t u, t ≠ u → ∀ a ∈ W t, a ∉ R u ∧ a ∉ W u) {m : Mem F} {p : T → Prog F}
    (htouch : ∀ t, Touches (R t) (W t) (p t)) {n : ℕ} {s : State T F} (h : Steps ⟨m, p⟩ n s) : ∃ m0, Inv R W m p n s m0 := by
  induction h with
  | zero => exact ⟨fun _ => m, ⟨htouch, fun _ _ _ => rfl, fun _ _ _ => rfl, fun _ => rfl, fun _ _ => rfl, by simp⟩⟩
  | succ _ h' ih =>
    obtain ⟨m0, hI⟩ := ih
    exact hI.step hsep h'

theorem no_race {R W : T → Set ℕ} (hsep : ∀ t u, t ≠ u → ∀ a ∈ W t, a ∉ R u ∧ a ∉ W u) {s : State T F}
    (ht : ∀ t, Touches (R t) (W t) (s.thread t)) : ¬ s.Race := by
  rintro ⟨t, u, a, w, w', hne, h1, h2, h3⟩
  have key : ∀ t w, (s.thread t).access = some (a, w) → (a ∈ R t ∨ a ∈ W t) ∧ (w = true → a ∈ W t) := by
    intro t w h
    have := ht t
    cases hp : s.thread t with
    | halt => rw [hp] at h; simp [Prog.access] at h
    | fault f => rw [hp] at h; simp [Prog.access] at h
    | load b k =>
      rw [hp] at h this
      simp only [Prog.access, Option.some.injEq, Prod.mk.injEq] at h
      obtain ⟨rfl, rfl⟩ := h
      exact ⟨this.1, by simp⟩
    | store b v k =>
      rw [hp] at h this
      simp only [Prog.access, Option.some.injEq, Prod.mk.injEq] at h
      obtain ⟨rfl, rfl⟩ := h
      exact ⟨.inr this.1, fun _ => this.1⟩
  have k1 := key t w h1
  have k2 := key u w' h2
  rcases h3 with h | h
  · have := hsep t u hne a (k1.2 h)
    rcases k2.1 with h' | h'
    · exact this.1 h'
    · exact this.2 h'
  · have := hsep u t (Ne.symm hne) a (k2.2 h)
    rcases k1.1 with h' | h'
    · exact this.1 h'
    · exact this.2 h'

end

/-! ### Jobs of a thread -/

section
variable {J : Type}

theorem Touches.share {R W : Set ℕ} (code : J → Prog F) : ∀ js : List J, (∀ j ∈ js, Touches R W (code j)) → Touches R W (Prog.share code js)
  | [], _ => trivial
  | j :: js, h => (h j (by simp)).andThen (Touches.share code js fun k hk => h k (by simp [hk]))

/-- Jobs with separate footprints, run one after the other by one thread. -/
theorem share_run (m : Mem F) (R W : J → Set ℕ) (S : Set ℕ) (hWR : ∀ j k, j ≠ k → ∀ a ∈ W j, a ∉ R k ∧ a ∉ W k) (hS : ∀ j, ∀ a ∈ S, a ∉ R j ∧ a ∉ W j)
    (code : J → Prog F) (Post : J → Mem F → Prop) (hcongr : ∀ j m1 m2, (∀ a ∈ W j, m1 a = m2 a) → Post j m1 → Post j m2) :
    ∀ (js : List J), js.Nodup → (∀ j ∈ js, Touches (R j) (W j ∪ S) (code j)) →
      (∀ j ∈ js, ∀ m1, (∀ a, a ∈ R j ∨ a ∈ W j → m1 a = m a) → ∃ m', (code j).run m1 = .ok m' ∧ Post j m') →
      ∀ m1, (∀ j ∈ js, ∀ a, a ∈ R j ∨ a ∈ W j → m1 a = m a) →
      ∃ m', (Prog.share code js).run m1 = .ok m' ∧ (∀ j ∈ js, Post j m') ∧ ∀ a, (∀ j ∈ js, a ∉ W j) → a ∉ S → m' a = m1 a := by
  intro js
  induction js with
  | nil => intro _ _ _ m1 _; exact ⟨m1, rfl, by simp, fun _ _ _ => rfl⟩
  | cons j js ih =>
    intro hnd ht hp m1 h1
    obtain ⟨hj, hnd⟩ := List.nodup_cons.mp hnd
    obtain ⟨m2, e2, p2⟩ := hp j (by simp) m1 (h1 j (by simp))
    have hfr := (ht j (by simp)).frame e2
    obtain ⟨m3, e3, p3, f3⟩ := ih hnd (fun k hk => ht k (by simp [hk])) (fun k hk => hp k (by simp [hk])) m2 (by
      intro k hk a ha
      rw [hfr a, h1 k (by simp [hk]) a ha]
      rintro (h | h)
      · have := hWR j k (by rintro rfl; exact hj hk) a h
        rcases ha with h' | h'
        · exact this.1 h'
        · exact this.2 h'
      · have := hS k a h
        rcases ha with h' | h'
        · exact this.1 h'
        · exact this.2 h')
    refine ⟨m3, by rw [Prog.share, run_andThen, e2]; exact e3, ?_, ?_⟩
    · intro k hk
      rcases List.mem_cons.mp hk with rfl | hk
      · refine hcongr k m2 m3 (fun a ha => ?_) p2
        rw [f3 a (fun i hi => (hWR k i (by rintro rfl; exact hj hi) a ha).2) (fun h => (hS k a h).2 ha)]
      · exact p3 k hk
    · intro a ha hs
      rw [f3 a (fun k hk => ha k (by simp [hk])) hs, hfr a]
      rintro (h | h)
      · exact ha j (by simp) h
      · exact hs h

/-- If a thread gets through, so did every job. -/
theorem share_ok (m : Mem F) (R W : J → Set ℕ) (S : Set ℕ) (hWR : ∀ j k, j ≠ k → ∀ a ∈ W j, a ∉ R k ∧ a ∉ W k) (hS : ∀ j, ∀ a ∈ S, a ∉ R j ∧ a ∉ W j)
    (code : J → Prog F) : ∀ (js : List J), js.Nodup → (∀ j ∈ js, Touches (R j) (W j ∪ S) (code j)) →
      ∀ m1, (∀ j ∈ js, ∀ a, a ∈ R j ∨ a ∈ W j → m1 a = m a) → ∀ m', (Prog.share code js).run m1 = .ok m' →
      ∀ j ∈ js, ∃ m2 m3, (∀ a, a ∈ R j ∨ a ∈ W j → m2 a = m a) ∧ (code j).run m2 = .ok m3 := by
  intro js
  induction js with
  | nil => intro _ _ _ _ _ _ j hj; simp at hj
  | cons j js ih =>
    intro hnd ht m1 h1 m' hm' k hk
    obtain ⟨hj, hnd⟩ := List.nodup_cons.mp hnd
    rw [Prog.share, run_andThen] at hm'
    cases e2 : (code j).run m1 with
    | error e => rw [e2] at hm'; simp [Except.bind] at hm'
    | ok m2 =>
      rw [e2] at hm'
      rcases List.mem_cons.mp hk with rfl | hk
      · exact ⟨m1, m2, h1 k (by simp), e2⟩
      · have hfr := (ht j (by simp)).frame e2
        refine ih hnd (fun k hk => ht k (by simp [hk])) m2 ?_ m' hm' k hk
        intro i hi a ha
        rw [hfr a, h1 i (by simp [hi]) a ha]
        rintro (h | h)
        · have := hWR j i (by rintro rfl; exact hj hi) a h
          rcases ha with h' | h'
          · exact this.1 h'
          · exact this.2 h'
        · have := hS i a h
          rcases ha with h' | h'
          · exact this.1 h'
          · exact this.2 h'

end

/-! ### Cells -/

theorem readCells_congr {m m' : Mem F} {a n : ℕ} (h : ∀ x ∈ floatCells a n, m x = m' x) : readCells m a n = readCells m' a n := by
  unfold readCells
  refine List.map_congr_left fun j hj => h _ ⟨j, by simpa using hj, rfl⟩

@[simp] theorem readCells_length (m : Mem F) (a n : ℕ) : (readCells m a n).length = n := by simp [readCells]

theorem readCells_slice (m : Mem F) (a n i k : ℕ) (h : i + k ≤ n) : slice (readCells m a n) i k = readCells m (a + 4 * i) k := by
  apply List.ext_getElem?
  intro j
  simp only [slice, readCells, List.getElem?_take, List.getElem?_drop, List.getElem?_map, List.getElem?_range']
  by_cases hj : j < k
  · rw [if_pos hj]
    simp [hj, show i + j < n by omega, Nat.mul_add, Nat.add_assoc]
  · rw [if_neg hj]
    simp [hj]

/-! ### Blocks -/

theorem touches_stores {R W : Set ℕ} : ∀ l : List (ℕ × F), (∀ x ∈ l, x.1 ∈ W) → Touches R W (Prog.stores l)
  | [], _ => trivial
  | x :: l, h => ⟨h x (by simp), touches_stores l fun y hy => h y (by simp [hy])⟩

theorem touches_loads {R W : Set ℕ} : ∀ (l : List ℕ) (k : List F → Prog F), (∀ a ∈ l, a ∈ R ∨ a ∈ W) → (∀ vs, Touches R W (k vs)) → Touches R W (Prog.loads l k)
  | [], _, _, hk => hk []
  | a :: l, k, h, hk => ⟨h a (by simp), fun v => touches_loads l _ (fun b hb => h b (by simp [hb])) fun vs => hk (v :: vs)⟩

theorem touches_block {R W : Set ℕ} (ins outs : List ℕ) (f : List F → M (List F)) (hi : ∀ a ∈ ins, a ∈ R ∨ a ∈ W) (ho : ∀ a ∈ outs, a ∈ W) :
    Touches R W (Prog.block ins outs f) := by
  refine touches_loads ins _ hi fun vs => ?_
  cases f vs with
  | error e => trivial
  | ok ys => exact touches_stores _ fun x hx => ho _ (List.of_mem_zip hx).1

theorem run_loads : ∀ (l : List ℕ) (k : List F → Prog F) (m : Mem F), (Prog.loads l k).run m = (k (l.map m)).run m
  | [], _, _ => rfl
  | a :: l, k, m => by simp only [Prog.loads, Prog.run, run_loads l, List.map_cons]

theorem run_stores : ∀ (outs : List ℕ) (ys : List F) (m : Mem F), outs.Nodup → outs.length = ys.length →
    ∃ m', (Prog.stores (outs.zip ys)).run m = .ok m' ∧ outs.map m' = ys ∧ ∀ a, a ∉ outs → m' a = m a
  | [], [], m, _, _ => ⟨m, rfl, rfl, fun _ _ => rfl⟩
  | a :: outs, y :: ys, m, hnd, hl => by
    obtain ⟨m', h1, h2, h3⟩ := run_stores outs ys (Function.update m a y) (List.nodup_cons.1 hnd).2 (by simpa using hl)
    refine ⟨m', h1, ?_, fun b hb => ?_⟩
    · rw [List.map_cons, h2, h3 a (List.nodup_cons.1 hnd).1, Function.update_self]
    · rw [h3 b (by simp_all), Function.update_of_ne (by simp_all)]

/-- Addresses of consecutive cells, in order. -/
def cellList (a n : ℕ) : List ℕ := (List.range n).map fun j => a + 4 * j

theorem mem_cellList {a n x : ℕ} : x ∈ cellList a n ↔ x ∈ floatCells a n := by
  simp only [cellList, floatCells, List.mem_map, List.mem_range, Set.mem_setOf_eq]
  exact ⟨fun ⟨j, h, e⟩ => ⟨j, h, e.symm⟩, fun ⟨j, h, e⟩ => ⟨j, h, e.symm⟩⟩

theorem map_cellList (m : Mem F) (a n : ℕ) : (cellList a n).map m = readCells m a n := by simp [cellList, readCells, Function.comp_def]

theorem cellList_nodup (a n : ℕ) : (cellList a n).Nodup := List.nodup_range.map fun i j (h : a + 4 * i = a + 4 * j) => by omega

/-- Running a block that stores to the cells `a .. a + 4 n`. -/
theorem run_block_ok (ins : List ℕ) (a n : ℕ) (f : List F → M (List F)) (m : Mem F) (ys : List F) (h : f (ins.map m) = .ok ys) (hl : ys.length = n) :
    ∃ m', (Prog.block ins (cellList a n) f).run m = .ok m' ∧ readCells m' a n = ys := by
  obtain ⟨m', h1, h2, -⟩ := run_stores (cellList a n) ys m (cellList_nodup a n) (by simp [cellList, hl])
  refine ⟨m', ?_, by rw [← map_cellList, h2]⟩
  simp only [Prog.block, run_loads, h, h1]

theorem run_block_error (ins outs : List ℕ) (f : List F → M (List F)) (m : Mem F) (e : Fault) (h : f (ins.map m) = .error e) :
    (Prog.block ins outs f).run m = .error e := by
  simp only [Prog.block, run_loads, h, Prog.run]

/-! ### Executions exist -/

section
variable [DecidableEq T]

theorem Steps.trans {s s' s'' : State T F} {n k : ℕ} (h : Steps s n s') (h' : Steps s' k s'') : Steps s (n + k) s'' := by
  induction h' with
  | zero => exact h
  | succ _ hs ih => exact .succ ih hs

/-- A thread that cannot go on. -/
def Prog.Stuck (p : Prog F) : Prop := p = .halt ∨ ∃ f, p = .fault f

theorem run_thread (t : T) : ∀ (q : Prog F) (s : State T F), s.thread t = q →
    ∃ n s', Steps s n s' ∧ (s'.thread t).Stuck ∧ ∀ u, u ≠ t → s'.thread u = s.thread u := by
  intro q
  induction q with
  | halt => exact fun s h => ⟨0, s, .zero, .inl h, fun _ _ => rfl⟩
  | fault f => exact fun s h => ⟨0, s, .zero, .inr ⟨f, h⟩, fun _ _ => rfl⟩
  | load a k ih =>
    intro s h
    obtain ⟨n, s', h1, h2, h3⟩ := ih (s.mem a) ⟨s.mem, Function.update s.thread t (k (s.mem a))⟩ (by simp)
    exact ⟨_, s', (Steps.succ .zero (Step.load s t a k h)).trans h1, h2, fun u hu => by rw [h3 u hu]; simp [hu]⟩
  | store a v k ih =>
    intro s h
    obtain ⟨n, s', h1, h2, h3⟩ := ih ⟨Function.update s.mem a v, Function.update s.thread t k⟩ (by simp)
    exact ⟨_, s', (Steps.succ .zero (Step.store s t a v k h)).trans h1, h2, fun u hu => by rw [h3 u hu]; simp [hu]⟩

/-- Every execution can be continued until no thread can go on. -/
theorem exists_end [Fintype T] (s : State T F) : ∃ n s', Steps s n s' ∧ ∀ s'', ¬ Step s' s'' := by
  have key : ∀ A : Finset T, ∃ n s', Steps s n s' ∧ ∀ t ∈ A, (s'.thread t).Stuck := by
    intro A
    induction A using Finset.induction_on with
    | empty => exact ⟨0, s, .zero, by simp⟩
    | insert t A ht ih =>
      obtain ⟨n, s', h1, h2⟩ := ih
      obtain ⟨k, s'', h3, h4, h5⟩ := run_thread t _ s' rfl
      refine ⟨_, s'', h1.trans h3, fun u hu => ?_⟩
      rcases Finset.mem_insert.1 hu with rfl | hu'
      · exact h4
      · rw [h5 u (fun e => ht (e ▸ hu'))]; exact h2 u hu'
  obtain ⟨n, s', h1, h2⟩ := key Finset.univ
  refine ⟨n, s', h1, fun s'' hs => ?_⟩
  cases hs with
  | load t a k hp => rcases h2 t (Finset.mem_univ t) with h | ⟨f, h⟩ <;> rw [h] at hp <;> simp at hp
  | store t a v k hp => rcases h2 t (Finset.mem_univ t) with h | ⟨f, h⟩ <;> rw [h] at hp <;> simp at hp

end

end NN
