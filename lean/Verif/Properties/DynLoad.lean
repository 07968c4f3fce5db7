import Verif.Model.DynLoad
import Verif.Properties.Create
import Verif.Proofs.OptRun
/-
C75: activation functions from shared libraries and the resources they take.
-/
namespace NN.Dyn

/-! ### Specification -/

/-- The code at this address is in memory: it is a symbol of an open library. -/
def Callable (l : Linker) (w : World) (f : Nat) : Prop := ∃ lib ∈ w.handles, ∃ s, l.sym lib s = some f

/-- The process holds exactly the blocks `live` and the open libraries `hs`, and those of the records. -/
structure Tidy (l : Linker) (w : World) (live : List Nat) (hs : List String) : Prop where
  wf : w.heap.WF
  live : w.heap.live.Perm (w.recs.flatMap (fun r => [r.nameBlk, r.self]) ++ live)
  handles : w.handles.Perm (w.recs.map Rec.handle ++ hs)
  syms : ∀ r ∈ w.recs, (∃ s, l.sym r.handle s = some r.func) ∧ ∀ d, r.deriv = some d → ∃ s, l.sym r.handle s = some d

/-- The record of `Names.lean`. -/
def Rec.abs (r : Rec) : ActRecord := ⟨r.name, r.func, r.deriv⟩

/-- The library of the name can be opened (names without `@` have none). -/
def Opens (l : Linker) (name : String) : Prop :=
  ∀ symbol lib : String, '@' ∉ symbol.toList → name = symbol ++ "@" ++ lib → l.opens lib = true

/-- A sequence of lookups. -/
def lookups (l : Linker) (ok : Nat → Bool) : List String → World → M (List (Option Act) × World)
  | [], w => pure ([], w)
  | n :: ns, w => do
    let (a, w) ← lookup l ok n w
    let (as, w) ← lookups l ok ns w
    pure (a :: as, w)

/-! ### One lookup -/

theorem release_perm {w : World} {id : Nat} {rest : List Nat} (hw : w.heap.WF) (hp : w.heap.live.Perm (id :: rest)) :
    ∃ h', release w id = .ok { w with heap := h' } ∧ h'.live.Perm rest ∧ h'.count = w.heap.count ∧ h'.WF := by
  obtain ⟨h', e, p, c⟩ := free_perm hp
  refine ⟨h', by simp [release, e, bind, Except.bind, pure, Except.pure], p, c, ?_, ?_⟩
  · intro i hi
    rw [c]
    exact hw.lt i (hp.mem_iff.2 (List.mem_cons_of_mem _ (p.mem_iff.1 hi)))
  · exact p.nodup_iff.2 (List.nodup_cons.1 (hp.nodup_iff.1 hw.nodup)).2

theorem dlclose_perm (l : Linker) {w : World} {lib : String} {rest : List String} (hp : w.handles.Perm (lib :: rest)) :
    ∃ hs p, dlclose l lib w = .ok { w with handles := hs, pending := p } ∧ hs.Perm rest := by
  have hm : lib ∈ w.handles := hp.mem_iff.2 (by simp)
  refine ⟨w.handles.erase lib, _, by rw [dlclose, if_pos hm]; rfl, ?_⟩
  have := hp.erase lib
  rwa [List.erase_cons_head] at this

/-- Everything `load` does before the record is made. -/
theorem load_start {l : Linker} {ok : Nat → Bool} {name : String} {w : World} (hn : NameOk name) (hk : ok w.heap.count = true)
    (hw : w.heap.WF) :
    ∃ h', h'.WF ∧ h'.count = w.heap.count + 1 ∧ h'.live.Perm w.heap.live ∧
      ((∃ p, (Opens l name → p = w.pending) ∧ load l ok name w = .ok (none, { w with heap := h', pending := p, exits := w.exits + 1 }) ∧
          ¬ ∃ f d, Denotes l.toDynLinker name f d) ∨
       (∃ hs, hs.Perm w.handles ∧ load l ok name w = .ok (none, { w with heap := h', handles := hs, pending := false, exits := w.exits + 1 }) ∧
          ((l.sticky && w.pending) = false → ¬ ∃ f d, Denotes l.toDynLinker name f d)) ∨
       ∃ f d symbol lib, (l.sticky && w.pending) = false ∧ Denotes l.toDynLinker name f d ∧ l.sym lib symbol = some f ∧ l.sym lib (symbol ++ "_derivative") = d ∧
          load l ok name w =
            (match h'.malloc ok with
              | (none, h) => do
                let w ← dlclose l lib { w with heap := h, handles := lib :: w.handles, pending := false, exits := w.exits + 1 }
                pure (some f, w)
              | (some self, h) =>
                match h.malloc ok with
                | (none, h) => do
                  let w ← dlclose l lib { w with heap := h, handles := lib :: w.handles, pending := false, exits := w.exits + 1 }
                  pure (some f, w)
                | (some nm, h) => pure (some f, ⟨h, lib :: w.handles, false, w.recs ++ [⟨self, nm, name, lib, f, d⟩], w.exits + 1⟩))) := by
  have hp : (Heap.mk (w.heap.count + 1) (w.heap.count :: w.heap.live)).live.Perm (w.heap.count :: w.heap.live) := .refl _
  unfold load
  simp only [malloc_ok hk]
  cases hs : splitAt name with
  | none =>
    obtain ⟨h', e, p, c, wf⟩ := release_perm (w := { w with heap := ⟨w.heap.count + 1, w.heap.count :: w.heap.live⟩, exits := w.exits + 1 })
      hw.cons hp
    refine ⟨h', wf, c, p, .inl ⟨w.pending, fun _ => rfl, ?_, ?_⟩⟩
    · simp only [e, bind, Except.bind]
      rfl
    · rintro ⟨f, d, symbol, lib, h1, h2, -⟩
      rw [h2, splitAt_append h1] at hs
      simp at hs
  | some sl =>
    obtain ⟨symbol, lib⟩ := sl
    obtain ⟨hat, hname⟩ := splitAt_spec hs
    have hlen : ¬ 256 < symbol.utf8ByteSize + 11 + 1 := by
      have := hn symbol lib hat hname
      omega
    have uniq : ∀ {f d}, Denotes l.toDynLinker name f d → l.opens lib = true ∧ l.sym lib symbol = some f ∧ l.sym lib (symbol ++ "_derivative") = d := by
      rintro f d ⟨s', l', g1, g2, g3, g4, g5⟩
      rw [g2, splitAt_append g1] at hs
      simp only [Option.some.injEq, Prod.mk.injEq] at hs
      obtain ⟨rfl, rfl⟩ := hs
      exact ⟨g3, g4, g5⟩
    cases ho : l.opens lib with
    | false =>
      obtain ⟨h', e, p, c, wf⟩ := release_perm
        (w := { w with heap := ⟨w.heap.count + 1, w.heap.count :: w.heap.live⟩, exits := w.exits + 1, pending := true }) hw.cons hp
      refine ⟨h', wf, c, p, .inl ⟨true, fun h => ?_, ?_, ?_⟩⟩
      · rw [h symbol lib hat hname] at ho
        simp at ho
      · simp only [dlopen, ho, Bool.false_eq_true, if_false, e, bind, Except.bind]
        rfl
      · rintro ⟨f, d, h⟩
        rw [(uniq h).1] at ho
        simp at ho
    | true =>
      cases hsym : l.sym lib symbol with
      | none =>
        obtain ⟨h', e, p, c, wf⟩ := release_perm (w := { w with heap := ⟨w.heap.count + 1, w.heap.count :: w.heap.live⟩, exits := w.exits + 1, pending := true, handles := lib :: w.handles })
          hw.cons hp
        obtain ⟨hs', q, e', p'⟩ := dlclose_perm l (w := { w with heap := h', exits := w.exits + 1, pending := false, handles := lib :: w.handles }) (.refl _)
        have hq : q = false := by
          simp only [dlclose, List.mem_cons_self, if_true, clear, Bool.and_false, pure, Except.pure, Except.ok.injEq, World.mk.injEq] at e'
          exact e'.2.2.1.symm
        subst hq
        refine ⟨h', wf, c, p, .inr (.inl ⟨hs', p', ?_, ?_⟩)⟩
        · simp only [dlopen, ho, if_true, dlsym, hsym, hlen, if_false, clear, e, bind, Except.bind, dlerror, e']
          rfl
        · rintro - ⟨f, d, h⟩
          rw [(uniq h).2.1] at hsym
          simp at hsym
      | some f =>
        obtain ⟨h', e, p, c, wf⟩ := release_perm (w := { w with heap := ⟨w.heap.count + 1, w.heap.count :: w.heap.live⟩, exits := w.exits + 1, pending := l.sticky && (l.sticky && w.pending), handles := lib :: w.handles })
          hw.cons hp
        cases hst : (l.sticky && w.pending) with
        | true =>
          obtain ⟨hs', q, e', p'⟩ := dlclose_perm l (w := { w with heap := h', exits := w.exits + 1, pending := false, handles := lib :: w.handles }) (.refl _)
          have hq : q = false := by
            simp only [dlclose, List.mem_cons_self, if_true, clear, Bool.and_false, pure, Except.pure, Except.ok.injEq, World.mk.injEq] at e'
            exact e'.2.2.1.symm
          subst hq
          refine ⟨h', wf, c, p, .inr (.inl ⟨hs', p', ?_, by simp⟩)⟩
          have hb : (l.sticky && (l.sticky && w.pending)) = true := by rw [hst]; simpa using (Bool.and_eq_true_iff.1 hst).1
          simp only [hb] at e
          simp only [dlopen, ho, if_true, dlsym, hsym, hlen, if_false, clear, e, bind, Except.bind, dlerror, e', hb]
          rfl
        | false =>
          refine ⟨h', wf, c, p, .inr (.inr ⟨f, _, symbol, lib, rfl, ⟨symbol, lib, hat, hname, ho, hsym, rfl⟩, hsym, rfl, ?_⟩)⟩
          have hb : (l.sticky && (l.sticky && w.pending)) = false := by rw [hst]; simp
          simp only [hb] at e
          simp only [dlopen, ho, if_true, dlsym, hsym, hlen, if_false, clear, e, bind, Except.bind, dlerror, hb]
          cases l.sym lib (symbol ++ "_derivative") <;> rfl

theorem tidy_same {l : Linker} {w w' : World} {live : List Nat} {hs : List String} (t : Tidy l w live hs) (h1 : w'.heap.WF)
    (h2 : w'.heap.live.Perm w.heap.live) (h3 : w'.handles.Perm w.handles) (h4 : w'.recs = w.recs) : Tidy l w' live hs where
  wf := h1
  live := by rw [h4]; exact h2.trans t.live
  handles := by rw [h4]; exact h3.trans t.handles
  syms := by rw [h4]; exact t.syms

theorem dynamic_none {dl : DynLinker} {recs : List ActRecord} {name : String} (hn : NameOk name) (h : ¬ ∃ f d, Denotes dl name f d) :
    getActivationFuncDynamic dl recs name = .ok (none, recs) := by
  unfold getActivationFuncDynamic
  cases hs : splitAt name with
  | none => rfl
  | some sl =>
    obtain ⟨symbol, lib⟩ := sl
    obtain ⟨hat, hname⟩ := splitAt_spec hs
    have hlen : ¬ 256 < symbol.utf8ByteSize + 11 + 1 := by
      have := hn symbol lib hat hname
      omega
    simp only [hlen, if_false]
    split
    · rename_i ho
      cases hsym : dl.sym lib symbol with
      | none => rfl
      | some f => exact absurd ⟨f, _, symbol, lib, hat, hname, ho, hsym, rfl⟩ h
    · rfl

theorem dynamic_some {dl : DynLinker} {recs : List ActRecord} {name : String} (hn : NameOk name) {f : Nat} {d : Option Nat}
    (h : Denotes dl name f d) : getActivationFuncDynamic dl recs name = .ok (some (.custom f), recs ++ [⟨name, f, d⟩]) := by
  obtain ⟨symbol, lib, hat, rfl, ho, hsym, rfl⟩ := h
  have hlen : ¬ 256 < symbol.utf8ByteSize + 11 + 1 := by
    have := hn symbol lib hat rfl
    omega
  simp only [getActivationFuncDynamic, splitAt_append hat, ho, if_true, hlen, if_false, hsym, pure, Except.pure]

/-- **C75** One lookup of a custom name, if an allocator that grants the copy of the name grants the record too: no fault; nothing
is left behind when it fails; a function that is returned is in memory and has a record; the result is that of `Names.lean` unless
an error is pending that the linker keeps.  (Missing: memory ending within the call, see `C75_dangling_false`.) -/
theorem C75_load_partial {l : Linker} {ok : Nat → Bool} {name : String} {w : World} {live : List Nat} {hs : List String}
    (t : Tidy l w live hs) (hn : NameOk name)
    (hk : ok w.heap.count = true → ok (w.heap.count + 1) = true ∧ ok (w.heap.count + 2) = true) :
    ∃ r w', load l ok name w = .ok (r, w') ∧ Tidy l w' live hs ∧ w'.exits = w.exits + 1 ∧ (∃ new, w'.recs = w.recs ++ new) ∧
      (r = none → w'.recs = w.recs) ∧ (∀ f, r = some f → Callable l w' f ∧ ∃ x ∈ w'.recs, x.func = f) ∧
      (ok w.heap.count = true → (l.sticky && w.pending) = false →
        getActivationFuncDynamic l.toDynLinker (w.recs.map Rec.abs) name = .ok (r.map .custom, w'.recs.map Rec.abs)) ∧
      (Opens l name → w.pending = false → w'.pending = false) := by
  cases hc : ok w.heap.count with
  | false =>
    refine ⟨none, { w with heap := ⟨w.heap.count + 1, w.heap.live⟩, exits := w.exits + 1 }, ?_, tidy_same t t.wf.skip (.refl _) (.refl _) rfl,
      rfl, ⟨[], by simp⟩, fun _ => rfl, by simp, by simp, fun _ h => h⟩
    unfold load
    simp only [malloc_fail hc]
    rfl
  | true =>
    obtain ⟨hk1, hk2⟩ := hk hc
    obtain ⟨h', wf, c, p, h⟩ := load_start (l := l) hn hc t.wf
    rcases h with ⟨q, hq, e, hd⟩ | ⟨hs', hp, e, hd⟩ | ⟨f, d, symbol, lib, -, hd, h1, h2, e⟩
    · exact ⟨none, _, e, tidy_same t wf p (.refl _) rfl, rfl, ⟨[], by simp⟩, fun _ => rfl, by simp,
        fun _ _ => dynamic_none hn hd, fun h1 h2 => (hq h1).trans h2⟩
    · exact ⟨none, _, e, tidy_same t wf p hp rfl, rfl, ⟨[], by simp⟩, fun _ => rfl, by simp,
        fun _ h => dynamic_none hn (hd h), fun _ _ => rfl⟩
    · rw [← c] at hk1
      have hk2' : ok (h'.count + 1) = true := by rw [c]; exact hk2
      have m2 : (Heap.mk (h'.count + 1) (h'.count :: h'.live)).malloc ok = _ := malloc_ok hk2'
      simp only [malloc_ok hk1, m2] at e
      refine ⟨some f, _, e, ⟨wf.cons.cons, ?_, ?_, ?_⟩, rfl, ⟨_, rfl⟩, by simp, ?_, ?_, fun _ _ => rfl⟩
      · simp only [List.flatMap_append, List.flatMap_cons, List.flatMap_nil, List.append_nil]
        rw [List.append_assoc]
        refine List.Perm.trans ?_ (List.perm_append_comm_assoc _ _ _)
        exact ((p.trans t.live).cons _).cons _
      · simp only [List.map_append, List.map_cons, List.map_nil]
        rw [List.append_assoc]
        refine List.Perm.trans ?_ (List.perm_append_comm_assoc _ _ _)
        exact t.handles.cons _
      · intro r hr
        rcases List.mem_append.1 hr with hr | hr
        · exact t.syms r hr
        · rw [List.mem_singleton] at hr
          subst hr
          exact ⟨⟨_, h1⟩, fun d' hd' => ⟨_, h2.trans hd'⟩⟩
      · intro g hg
        simp only [Option.some.injEq] at hg
        subst hg
        exact ⟨⟨lib, by simp, symbol, h1⟩, _, List.mem_append_right _ (List.mem_singleton_self _), rfl⟩
      · intro _ _
        rw [dynamic_some hn hd]
        simp [Rec.abs]

/-! ### Histories -/

theorem lookup_builtin (l : Linker) (ok : Nat → Bool) (w : World) : ∀ b ∈ builtins, lookup l ok b.1 w = .ok (some b.2.1, w) := by
  intro b hb
  simp only [builtins, List.mem_cons, List.not_mem_nil, or_false] at hb
  rcases hb with rfl | rfl | rfl | rfl | rfl | rfl | rfl | rfl | rfl <;> simp [lookup, pure, Except.pure]

theorem lookup_other (l : Linker) (ok : Nat → Bool) (w : World) {name : String} (h : ∀ b ∈ builtins, name ≠ b.1) :
    lookup l ok name w = (do let (f, w) ← load l ok name w; pure (f.map .custom, w)) := by
  simp only [builtins, List.mem_cons, List.not_mem_nil, or_false, forall_eq_or_imp, forall_eq] at h
  obtain ⟨h1, h2, h3, h4, h5, h6, h7, h8, h9⟩ := h
  simp only [lookup, h1, h2, h3, h4, h5, h6, h7, h8, h9, if_false]

theorem builtin_not_custom {b : String × Act × ActDeriv} (hb : b ∈ builtins) (f : Nat) : b.2.1 ≠ .custom f := by
  simp only [builtins, List.mem_cons, List.not_mem_nil, or_false] at hb
  rcases hb with rfl | rfl | rfl | rfl | rfl | rfl | rfl | rfl | rfl <;> simp

theorem lookups_tidy {l : Linker} {ok : Nat → Bool} (hok : ∀ i, ok i = true) {live : List Nat} {hs : List String} :
    ∀ (names : List String) (w : World), Tidy l w live hs → (w.recs = [] ∨ 0 < w.exits) → (∀ n ∈ names, NameOk n) →
    ∃ as w', lookups l ok names w = .ok (as, w') ∧ Tidy l w' live hs ∧ (w'.recs = [] ∨ 0 < w'.exits) ∧
      (∃ new, w'.recs = w.recs ++ new) ∧ (∀ f, some (Act.custom f) ∈ as → ∃ x ∈ w'.recs, x.func = f) ∧
      ((l.sticky = true → w.pending = false ∧ ∀ n ∈ names, Opens l n) →
        loads l.toDynLinker names (w.recs.map Rec.abs) = .ok (as, w'.recs.map Rec.abs))
  | [], w, t, he, _ => ⟨[], w, rfl, t, he, ⟨[], by simp⟩, by simp, fun _ => rfl⟩
  | n :: ns, w, t, he, hn => by
    have hns : ∀ n ∈ ns, NameOk n := fun m hm => hn m (List.mem_cons_of_mem _ hm)
    rcases name_cases n with ⟨b, hb, rfl⟩ | hno
    · obtain ⟨as, w', e, t', he', hnew, hf, href⟩ := lookups_tidy hok ns w t he hns
      refine ⟨some b.2.1 :: as, w', ?_, t', he', hnew, ?_, ?_⟩
      · simp only [lookups, lookup_builtin l ok w b hb, bind, Except.bind, e]
        rfl
      · intro f h
        rcases List.mem_cons.1 h with h | h
        · exact absurd (Option.some.inj h).symm (builtin_not_custom hb f)
        · exact hf f h
      · intro h
        have := href (fun hst => ⟨(h hst).1, fun m hm => (h hst).2 m (List.mem_cons_of_mem _ hm)⟩)
        simp only [loads, (C14_builtin l.toDynLinker _ b hb).1, bind, Except.bind, this]
        rfl
    · obtain ⟨r, w1, e1, t1, x1, ⟨new1, hr1⟩, -, hf1, href1, hp1⟩ := C75_load_partial t (hn n List.mem_cons_self)
        (fun _ => ⟨hok _, hok _⟩)
      obtain ⟨as, w', e, t', he', ⟨new, hr⟩, hf, href⟩ := lookups_tidy hok ns w1 t1 (.inr (by omega)) hns
      refine ⟨r.map .custom :: as, w', ?_, t', he', ⟨new1 ++ new, by rw [hr, hr1, List.append_assoc]⟩, ?_, ?_⟩
      · simp only [lookups, lookup_other l ok w hno, e1, bind, Except.bind, pure, Except.pure, e]
      · intro f h
        rcases List.mem_cons.1 h with h | h
        · cases r with
          | none => simp at h
          | some g =>
            simp only [Option.map_some, Option.some.injEq, Act.custom.injEq] at h
            subst h
            obtain ⟨x, hx, hxf⟩ := (hf1 f rfl).2
            exact ⟨x, by rw [hr]; exact List.mem_append_left _ hx, hxf⟩
        · exact hf f h
      · intro h
        have hst : (l.sticky && w.pending) = false := by
          cases hst : l.sticky with
          | false => rfl
          | true => rw [(h hst).1]; rfl
        have h2 := href (fun hst => ⟨hp1 ((h hst).2 n List.mem_cons_self) (h hst).1,
          fun m hm => (h hst).2 m (List.mem_cons_of_mem _ hm)⟩)
        simp only [loads, getActivationFunc_other _ _ n hno, href1 (hok _) hst, bind, Except.bind, h2]
        rfl

theorem closeAll_tidy (l : Linker) : ∀ (rs : List Rec) (w : World) (live : List Nat) (hs : List String), w.heap.WF →
    w.heap.live.Perm (rs.flatMap (fun r => [r.nameBlk, r.self]) ++ live) → w.handles.Perm (rs.map Rec.handle ++ hs) →
    ∃ w', closeAll l rs w = .ok w' ∧ w'.heap.WF ∧ w'.heap.live.Perm live ∧ w'.handles.Perm hs
  | [], w, live, hs, hw, h1, h2 => ⟨w, rfl, hw, h1, h2⟩
  | r :: rs, w, live, hs, hw, h1, h2 => by
    obtain ⟨hs1, q, e1, p1⟩ := dlclose_perm l (w := w) (lib := r.handle) h2
    obtain ⟨ha, e2, p2, c2, wf2⟩ := release_perm (w := { w with handles := hs1, pending := q }) (id := r.nameBlk) hw h1
    obtain ⟨hb, e3, p3, c3, wf3⟩ := release_perm (w := { w with heap := ha, handles := hs1, pending := q }) (id := r.self) wf2 p2
    obtain ⟨w', e4, h4⟩ := closeAll_tidy l rs { w with heap := hb, handles := hs1, pending := q } live hs wf3 p3 p1
    refine ⟨w', ?_, h4⟩
    simp only [closeAll, e1, bind, Except.bind, e2, e3, e4]

/-- **C75** `exit`, however often the cleanup is registered: every block of the records is freed once and every library is closed
as often as it was opened. -/
theorem C75_exit {l : Linker} {w : World} {live : List Nat} {hs : List String} (t : Tidy l w live hs) (n : Nat) :
    ∃ w', exit l (n + 1) w = .ok w' ∧ w'.recs = [] ∧ w'.heap.live.Perm live ∧ w'.handles.Perm hs := by
  have h0 : ∀ (n : Nat) (w : World), w.recs = [] → exit l n w = .ok w := by
    intro n
    induction n with
    | zero => intro w _; rfl
    | succ n ih =>
      intro w hw
      have : cleanup l w = .ok w := by
        simp only [cleanup, hw, closeAll, bind, Except.bind, pure, Except.pure]
        rw [← hw]
      simp only [exit, this, bind, Except.bind]
      exact ih w hw
  obtain ⟨w1, e, wf, p1, p2⟩ := closeAll_tidy l w.recs w live hs t.wf t.live t.handles
  refine ⟨{ w1 with recs := [] }, ?_, rfl, p1, p2⟩
  simp only [exit, cleanup, e, bind, Except.bind, pure, Except.pure]
  exact h0 n _ rfl

/-- **C75** Every history of lookups while there is memory: no fault; every function given out and its derivative are in memory;
at exit no block and no library is left over; with a linker that forgets old errors (or if all libraries can be opened) the results
are those of `Names.lean` (C14).  (Missing: lack of memory.) -/
theorem C75_history_partial {l : Linker} {ok : Nat → Bool} (hok : ∀ i, ok i = true) (names : List String) (hn : ∀ n ∈ names, NameOk n)
    {w : World} (hw : w.heap.WF) (hr : w.recs = []) :
    ∃ as w', lookups l ok names w = .ok (as, w') ∧
      (∀ f, some (Act.custom f) ∈ as → Callable l w' f ∧ (∃ r ∈ w'.recs, r.func = f) ∧
        ∀ d, getActivationDerivative (w'.recs.map Rec.abs) (.custom f) = some (.custom d) → Callable l w' d) ∧
      ((l.sticky = true → w.pending = false ∧ ∀ n ∈ names, Opens l n) →
        loads l.toDynLinker names [] = .ok (as, w'.recs.map Rec.abs)) ∧
      ∃ w'', exit l w'.exits w' = .ok w'' ∧ w''.recs = [] ∧ w''.heap.live.Perm w.heap.live ∧ w''.handles.Perm w.handles := by
  have t : Tidy l w w.heap.live w.handles := ⟨hw, by simp [hr], by simp [hr], by simp [hr]⟩
  obtain ⟨as, w', e, t', he, -, hf, href⟩ := lookups_tidy hok names w t (.inl hr) hn
  have hcall : ∀ r ∈ w'.recs, ∀ s g, l.sym r.handle s = some g → Callable l w' g := fun r hm s g hg =>
    ⟨r.handle, t'.handles.mem_iff.2 (List.mem_append_left _ (List.mem_map_of_mem hm)), s, hg⟩
  refine ⟨as, w', e, fun f h => ?_, fun h => ?_, ?_⟩
  · obtain ⟨x, hx, rfl⟩ := hf f h
    obtain ⟨⟨s, hs⟩, -⟩ := t'.syms x hx
    refine ⟨hcall x hx s _ hs, ⟨x, hx, rfl⟩, fun d hd => ?_⟩
    simp only [getActivationDerivative] at hd
    cases hfind : (w'.recs.map Rec.abs).find? (fun r => r.func == x.func) with
    | none => rw [hfind] at hd; simp at hd
    | some y =>
      rw [hfind] at hd
      obtain ⟨z, hz, rfl⟩ := List.mem_map.1 (List.mem_of_find?_eq_some hfind)
      cases hzd : z.deriv with
      | none => simp [Rec.abs, hzd] at hd
      | some d' =>
        simp only [Rec.abs, hzd, Option.map_some, Option.some.injEq, ActDeriv.custom.injEq] at hd
        subst hd
        obtain ⟨s', hs'⟩ := (t'.syms z hz).2 d' hzd
        exact hcall z hz s' d' hs'
  · have := href h
    rwa [hr] at this
  · rcases Nat.eq_zero_or_pos w'.exits with h0 | h0
    · have hr' : w'.recs = [] := by
        rcases he with h | h
        · exact h
        · omega
      refine ⟨w', by rw [h0]; rfl, hr', ?_, ?_⟩
      · simpa [hr'] using t'.live
      · simpa [hr'] using t'.handles
    · obtain ⟨k, hk⟩ : ∃ k, w'.exits = k + 1 := ⟨w'.exits - 1, by omega⟩
      rw [hk]
      exact C75_exit t' k

/-! ### Where it fails -/

/-- **C75 is false** when memory ends after the copy of the name: the library is closed but the function in it is returned; calling
it executes memory that is no longer mapped. -/
theorem C75_dangling_false {l : Linker} {ok : Nat → Bool} {symbol lib : String} {f : Nat} {w : World} (hw : w.heap.WF)
    (hat : '@' ∉ symbol.toList) (hlen : symbol.utf8ByteSize ≤ 244) (ho : l.opens lib = true) (hs : l.sym lib symbol = some f)
    (hp : w.pending = false) (hk : ok w.heap.count = true)
    (hk' : ok (w.heap.count + 1) = false ∨ ok (w.heap.count + 2) = false)
    (hh : lib ∉ w.handles) (hown : ∀ lib' s, l.sym lib' s = some f → lib' = lib) :
    ∃ w', load l ok (symbol ++ "@" ++ lib) w = .ok (some f, w') ∧ ¬ Callable l w' f ∧ w'.recs = w.recs ∧
      (ok (w.heap.count + 1) = true → ∃ id ∉ w.heap.live, id ∈ w'.heap.live ∧ id = w.heap.count + 1) := by
  have hn : NameOk (symbol ++ "@" ++ lib) := by
    intro s' l' h1 h2
    have := splitAt_append (lib := l') h1
    rw [← h2, splitAt_append hat] at this
    simp only [Option.some.injEq, Prod.mk.injEq] at this
    rw [← this.1]; exact hlen
  obtain ⟨h', wf, c, p, h⟩ := load_start (l := l) hn hk hw
  have hden : Denotes l.toDynLinker (symbol ++ "@" ++ lib) f (l.sym lib (symbol ++ "_derivative")) := ⟨symbol, lib, hat, rfl, ho, hs, rfl⟩
  rcases h with ⟨q, hq, e, hd⟩ | ⟨hs', -, e, hd⟩ | ⟨g, d, s', l', -, hd, h1, h2, e⟩
  · exact absurd ⟨_, _, hden⟩ hd
  · exact absurd ⟨_, _, hden⟩ (hd (by rw [hp]; simp))
  · have hfg : g = f := by
      obtain ⟨s1, l1, g1, g2, g3, g4, g5⟩ := hd
      have := splitAt_append (lib := l1) g1
      rw [← g2, splitAt_append hat] at this
      simp only [Option.some.injEq, Prod.mk.injEq] at this
      obtain ⟨rfl, rfl⟩ := this
      rw [hs] at g4
      exact (Option.some.inj g4).symm
    subst hfg
    have hl : l' = lib := hown _ _ h1
    subst hl
    have hclose : ∀ h : Heap, dlclose l l' { w with heap := h, handles := l' :: w.handles, pending := false, exits := w.exits + 1 } =
        .ok { w with heap := h, pending := false, exits := w.exits + 1 } := by
      intro h
      simp only [dlclose, List.mem_cons_self, if_true, List.erase_cons_head, clear, Bool.and_false]
      rfl
    have hnc : ∀ h : Heap, ¬ Callable l { w with heap := h, pending := false, exits := w.exits + 1 } g := by
      rintro h ⟨l2, hl2, s2, hs2⟩
      rw [hown _ _ hs2] at hl2
      exact hh hl2
    have fresh : w.heap.count + 1 ∉ w.heap.live := fun hm => by
      have := hw.lt _ hm
      omega
    cases hk1 : ok (w.heap.count + 1) with
    | false =>
      rw [← c] at hk1
      simp only [malloc_fail hk1, hclose, bind, Except.bind] at e
      exact ⟨_, e, hnc _, rfl, by simp⟩
    | true =>
      have hk2 : ok (h'.count + 1) = false := by
        rw [c]
        rcases hk' with h | h
        · rw [h] at hk1; simp at hk1
        · exact h
      rw [← c] at hk1
      have m2 : (Heap.mk (h'.count + 1) (h'.count :: h'.live)).malloc ok = _ := malloc_fail hk2
      simp only [malloc_ok hk1, m2, hclose, bind, Except.bind] at e
      exact ⟨_, e, hnc _, rfl, fun _ => ⟨_, fresh, by simp [c], rfl⟩⟩

theorem release_keeps {w w' : World} {id x : Nat} (h : release w id = .ok w') (hx : x ≠ id) (hm : x ∈ w.heap.live) :
    x ∈ w'.heap.live ∧ w'.recs = w.recs := by
  simp only [release, Heap.free] at h
  split at h
  · simp only [bind, Except.bind, pure, Except.pure, Except.ok.injEq] at h
    subst h
    exact ⟨(List.mem_erase_of_ne hx).2 hm, rfl⟩
  · simp [bind, Except.bind] at h

theorem dlclose_heap {l : Linker} {w w' : World} {lib : String} (h : dlclose l lib w = .ok w') : w'.heap = w.heap ∧ w'.recs = w.recs := by
  simp only [dlclose] at h
  split at h
  · simp only [pure, Except.pure, Except.ok.injEq] at h
    subst h
    exact ⟨rfl, rfl⟩
  · simp at h

theorem closeAll_keeps {l : Linker} {x : Nat} : ∀ {rs : List Rec} {w w' : World}, closeAll l rs w = .ok w' →
    (∀ r ∈ rs, x ≠ r.self ∧ x ≠ r.nameBlk) → x ∈ w.heap.live → x ∈ w'.heap.live
  | [], w, w', h, _, hm => by
    simp only [closeAll, pure, Except.pure, Except.ok.injEq] at h
    rwa [← h]
  | r :: rs, w, w', h, hr, hm => by
    obtain ⟨w1, h1, h⟩ := bind_ok h
    obtain ⟨w2, h2, h⟩ := bind_ok h
    obtain ⟨w3, h3, h⟩ := bind_ok h
    obtain ⟨n1, n2⟩ := hr r List.mem_cons_self
    rw [← (dlclose_heap h1).1] at hm
    exact closeAll_keeps h (fun r' hr' => hr r' (List.mem_cons_of_mem _ hr')) (release_keeps h3 n1 (release_keeps h2 n2 hm).1).1

/-- **C75 is false** The record is lost when there is no memory for its name: no number of cleanups frees it. -/
theorem C75_leak_false {l : Linker} {ok : Nat → Bool} {symbol lib : String} {f : Nat} {w : World} {live : List Nat} {hs : List String}
    (t : Tidy l w live hs) (hat : '@' ∉ symbol.toList) (hlen : symbol.utf8ByteSize ≤ 244) (ho : l.opens lib = true)
    (hsym : l.sym lib symbol = some f) (hp : w.pending = false) (hk : ok w.heap.count = true) (hk1 : ok (w.heap.count + 1) = true)
    (hk2 : ok (w.heap.count + 2) = false) (hh : lib ∉ w.handles) (hown : ∀ lib' s, l.sym lib' s = some f → lib' = lib) :
    ∃ w' id, load l ok (symbol ++ "@" ++ lib) w = .ok (some f, w') ∧ id ∉ w.heap.live ∧
      ∀ n w'', exit l n w' = .ok w'' → id ∈ w''.heap.live := by
  obtain ⟨w', e, -, hr, hid⟩ := C75_dangling_false t.wf hat hlen ho hsym hp hk (.inr hk2) hh hown
  obtain ⟨id, h1, h2, rfl⟩ := hid hk1
  refine ⟨w', _, e, h1, ?_⟩
  have hrs : ∀ r ∈ w'.recs, w.heap.count + 1 ≠ r.self ∧ w.heap.count + 1 ≠ r.nameBlk := by
    rw [hr]
    intro r hm
    have hin : ∀ i ∈ [r.nameBlk, r.self], i ∈ w.heap.live := fun i hi =>
      t.live.mem_iff.2 (List.mem_append_left _ (List.mem_flatMap.2 ⟨r, hm, hi⟩))
    exact ⟨fun h => h1 (h ▸ hin _ (by simp)), fun h => h1 (h ▸ hin _ (by simp))⟩
  have key : ∀ (n : Nat) (v v'' : World), (∀ r ∈ v.recs, w.heap.count + 1 ≠ r.self ∧ w.heap.count + 1 ≠ r.nameBlk) →
      w.heap.count + 1 ∈ v.heap.live → exit l n v = .ok v'' → w.heap.count + 1 ∈ v''.heap.live := by
    intro n
    induction n with
    | zero =>
      intro v v'' _ hm he
      simp only [exit, pure, Except.pure, Except.ok.injEq] at he
      rwa [← he]
    | succ n ih =>
      intro v v'' hv hm he
      obtain ⟨v1, h1, he⟩ := bind_ok he
      obtain ⟨v2, h2, h1⟩ := bind_ok h1
      simp only [pure, Except.pure, Except.ok.injEq] at h1
      subst h1
      have hk := closeAll_keeps h2 hv hm
      exact ih { v2 with recs := [] } v'' (by simp) hk he
  exact fun n w'' he => key n w' w'' hrs h2 he

/-- **C75 is false** for linkers that keep an error until `dlerror` is called: after a name whose library cannot be opened, the next
custom name is refused, whatever it denotes, and its library is closed again. -/
theorem C75_sticky_false {l : Linker} (hl : l.sticky = true) {ok : Nat → Bool} (hok : ∀ i, ok i = true) {symbol lib name : String}
    (hat : '@' ∉ symbol.toList) (ho : l.opens lib = false) (hn : NameOk name) {w : World} (hw : w.heap.WF) :
    ∃ w1 w2, load l ok (symbol ++ "@" ++ lib) w = .ok (none, w1) ∧ load l ok name w1 = .ok (none, w2) ∧ w2.recs = w.recs := by
  obtain ⟨h1, e1, p1, c1, wf1⟩ := release_perm
    (w := { w with heap := ⟨w.heap.count + 1, w.heap.count :: w.heap.live⟩, exits := w.exits + 1, pending := true }) hw.cons (.refl _)
  have e : load l ok (symbol ++ "@" ++ lib) w = .ok (none, { w with heap := h1, exits := w.exits + 1, pending := true }) := by
    simp only [load, malloc_ok (hok _), splitAt_append hat, dlopen, ho, Bool.false_eq_true, if_false, e1, bind, Except.bind]
    rfl
  obtain ⟨h', wf, c, p, h⟩ := load_start (l := l) (w := { w with heap := h1, exits := w.exits + 1, pending := true }) hn (hok _) wf1
  rcases h with ⟨q, -, e2, -⟩ | ⟨hs', -, e2, -⟩ | ⟨f, d, s', l', hst, -⟩
  · exact ⟨_, _, e, e2, rfl⟩
  · exact ⟨_, _, e, e2, rfl⟩
  · simp [hl] at hst

/-! ### Examples -/

/-- `libswish.so` with a function and its derivative (`exLinker`, C14). -/
def exL (sticky : Bool) : Linker := ⟨exLinker, sticky⟩

def exWorld : World := ⟨⟨7, [5, 3]⟩, ["libm.so"], false, [], 0⟩

theorem exWorld_wf : exWorld.heap.WF := ⟨by decide, by decide⟩

theorem exName_ok : NameOk "swish@libswish.so" := by
  intro s l h1 h2
  have h3 := splitAt_append (lib := l) h1
  rw [← h2, show "swish@libswish.so" = "swish" ++ "@" ++ "libswish.so" from rfl, splitAt_append (by decide)] at h3
  simp only [Option.some.injEq, Prod.mk.injEq] at h3
  rw [← h3.1]
  decide

/-- The same name twice: two records, two open handles, nothing left at exit. -/
example : ∃ w', lookups (exL false) (fun _ => true) ["swish@libswish.so", "relu", "swish@libswish.so"] exWorld =
      .ok ([some (.custom 100), some .relu, some (.custom 100)], w') ∧
    w' = ⟨⟨13, [12, 11, 9, 8, 5, 3]⟩, ["libswish.so", "libswish.so", "libm.so"], false,
      [⟨8, 9, "swish@libswish.so", "libswish.so", 100, some 101⟩, ⟨11, 12, "swish@libswish.so", "libswish.so", 100, some 101⟩], 2⟩ ∧
    exit (exL false) w'.exits w' = .ok ⟨⟨13, [5, 3]⟩, ["libm.so"], false, [], 2⟩ := ⟨_, rfl, rfl, rfl⟩

/-- The hypotheses of the theorem hold for it. -/
example : ∃ as w', lookups (exL true) (fun _ => true) ["swish@libswish.so", "swish@libswish.so"] exWorld = .ok (as, w') ∧
    ∃ w'', exit (exL true) w'.exits w' = .ok w'' ∧ w''.heap.live.Perm [5, 3] ∧ w''.handles.Perm ["libm.so"] := by
  obtain ⟨as, w', e, -, -, w'', e', -, h1, h2⟩ := C75_history_partial (l := exL true) (ok := fun _ => true) (fun _ => rfl)
    ["swish@libswish.so", "swish@libswish.so"] (by simp [exName_ok]) exWorld_wf rfl
  exact ⟨as, w', e, w'', e', h1, h2⟩

/-- No memory for the name: the function is returned, the library is closed, block 8 is lost. -/
example : load (exL false) (fun i => i != 9) "swish@libswish.so" exWorld =
    .ok (some 100, ⟨⟨10, [8, 5, 3]⟩, ["libm.so"], false, [], 1⟩) := rfl

/-- A missing library and then a good one, with both kinds of linker. -/
example : ∃ w1 w2, load (exL true) (fun _ => true) "swish@nolib.so" exWorld = .ok (none, w1) ∧
    load (exL true) (fun _ => true) "swish@libswish.so" w1 = .ok (none, w2) := by
  obtain ⟨w1, w2, h1, h2, -⟩ := C75_sticky_false (l := exL true) rfl (ok := fun _ => true) (fun _ => rfl) (symbol := "swish")
    (lib := "nolib.so") (by decide) (by decide) exName_ok exWorld_wf
  exact ⟨w1, w2, h1, h2⟩

example : ∃ w1 w2, load (exL false) (fun _ => true) "swish@nolib.so" exWorld = .ok (none, w1) ∧
    load (exL false) (fun _ => true) "swish@libswish.so" w1 = .ok (some 100, w2) := ⟨_, _, rfl, rfl⟩

end NN.Dyn
