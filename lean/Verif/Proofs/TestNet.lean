import Verif.Model.TestNet
import Verif.Proofs.Elem
/-
Lemmas for C83: the functions of tests/test.h as folds, in any arithmetic.
-/
set_option linter.unusedSimpArgs false

namespace NN.TestNet
open FloatOps
variable {F : Type} [FloatOps F]

omit [FloatOps F] in
theorem drop_take_cons {l : List F} {i n : Nat} (h : i < l.length) :
    (l.drop i).take (n + 1) = l[i] :: (l.drop (i + 1)).take n := by
  rw [List.drop_eq_getElem_cons h, List.take_succ_cons]

theorem meanLoop_eq (v : View F) : ∀ (n i : Nat) (s : F), i + n ≤ v.data.length →
    meanLoop v n i s = .ok (((v.data.drop i).take n).foldl add s)
  | 0, _, _, _ => by simp [meanLoop, pure, Except.pure]
  | n + 1, i, s, h => by
    rw [meanLoop, load_ok (show i < v.data.length by omega), drop_take_cons (by omega)]
    simp only [bind, Except.bind, List.foldl_cons]
    exact meanLoop_eq v n (i + 1) _ (by omega)

theorem stddevLoop_eq (v : View F) : ∀ (n i : Nat) (s q : F), i + n ≤ v.data.length →
    stddevLoop v n i s q = .ok (((v.data.drop i).take n).foldl add s, (((v.data.drop i).take n).map fun x => mul x x).foldl add q)
  | 0, _, _, _, _ => by simp [stddevLoop, pure, Except.pure]
  | n + 1, i, s, q, h => by
    rw [stddevLoop, load_ok (show i < v.data.length by omega), drop_take_cons (by omega)]
    simp only [bind, Except.bind, List.foldl_cons, List.map_cons]
    exact stddevLoop_eq v n (i + 1) _ _ (by omega)

theorem maxLoop_eq (v : View F) : ∀ (n i : Nat) (m : F), i + n ≤ v.data.length →
    maxLoop v n i m = .ok (((v.data.drop i).take n).foldl (fun m x => if lt m x then x else m) m)
  | 0, _, _, _ => by simp [maxLoop, pure, Except.pure]
  | n + 1, i, m, h => by
    rw [maxLoop, load_ok (show i < v.data.length by omega), drop_take_cons (by omega)]
    simp only [bind, Except.bind, List.foldl_cons]
    exact maxLoop_eq v n (i + 1) _ (by omega)

theorem minLoop_eq (v : View F) : ∀ (n i : Nat) (m : F), i + n ≤ v.data.length →
    minLoop v n i m = .ok (((v.data.drop i).take n).foldl (fun m x => if lt x m then x else m) m)
  | 0, _, _, _ => by simp [minLoop, pure, Except.pure]
  | n + 1, i, m, h => by
    rw [minLoop, load_ok (show i < v.data.length by omega), drop_take_cons (by omega)]
    simp only [bind, Except.bind, List.foldl_cons]
    exact minLoop_eq v n (i + 1) _ (by omega)

/-- What `test_calculate_mean` returns. -/
def meanOf (xs : List F) : F := div (xs.foldl add zero) (ofNat xs.length)

/-- What `test_calculate_stddev` returns for two values or more. -/
def stddevOf (xs : List F) : F :=
  sqrt (sub (div ((xs.map fun x => mul x x).foldl add zero) (ofNat xs.length)) (mul (meanOf xs) (meanOf xs)))

/-- What `test_calculate_max` returns. -/
def maxOf (x : F) (xs : List F) : F := (x :: xs).foldl (fun m x => if lt m x then x else m) x

/-- What `test_calculate_min` returns. -/
def minOf (x : F) (xs : List F) : F := (x :: xs).foldl (fun m x => if lt x m then x else m) x

theorem calcMean_eq (a : Nat) (xs rest : List F) {n : Nat} (hn : xs.length = n) : calcMean n ⟨a, xs ++ rest⟩ = .ok (meanOf xs) := by
  rw [calcMean, meanLoop_eq _ _ _ _ (by simp; omega)]
  simp [bind, Except.bind, pure, Except.pure, meanOf, ← hn]

theorem calcStddev_eq (a : Nat) (xs rest : List F) {n : Nat} (hn : xs.length = n) (h2 : 2 ≤ n) (hs : n < 2 ^ 32) :
    calcStddev n ⟨a, xs ++ rest⟩ = .ok (stddevOf xs) := by
  rw [calcStddev, if_neg (by omega), Nat.min_eq_left (by omega), stddevLoop_eq _ _ _ _ _ (by simp; omega)]
  simp only [bind, Except.bind, List.drop_zero]
  rw [if_neg (by omega)]
  simp [pure, Except.pure, stddevOf, meanOf, ← hn]

theorem calcMax_eq (a : Nat) (x : F) (xs rest : List F) {n : Nat} (hn : xs.length + 1 = n) :
    calcMax n ⟨a, x :: xs ++ rest⟩ = .ok (maxOf x xs) := by
  rw [calcMax, load_ok (by simp)]
  simp only [bind, Except.bind]
  rw [maxLoop_eq _ _ _ _ (by simp; omega)]
  simp [maxOf, ← hn]

theorem calcMin_eq (a : Nat) (x : F) (xs rest : List F) {n : Nat} (hn : xs.length + 1 = n) :
    calcMin n ⟨a, x :: xs ++ rest⟩ = .ok (minOf x xs) := by
  rw [calcMin, load_ok (by simp)]
  simp only [bind, Except.bind]
  rw [minLoop_eq _ _ _ _ (by simp; omega)]
  simp [minOf, ← hn]

/-- What the checks of the Kaiming weights print and count. -/
def kaimingLog (nInp : Nat) (xs : List F) : List (Bool × Bool) :=
  [(le (abs (sub (meanOf xs) zero)) (lit 1 10000), lt (lit 1 10000) (abs (sub (meanOf xs) zero))),
   (le (abs (sub (stddevOf xs) (sqrt (div (lit 2 1) (ofNat nInp))))) (lit 1 10000),
     lt (lit 1 10000) (abs (sub (stddevOf xs) (sqrt (div (lit 2 1) (ofNat nInp))))))]

/-- The bound of the Xavier weights, as the program computes it. -/
def bound (nInp nOut : Nat) : F := sqrt (div (lit 6 1) (ofNat (nInp + nOut)))

/-- What the checks of the Xavier weights print and count. -/
def xavierLog (nInp nOut : Nat) (x : F) (xs : List F) : List (Bool × Bool) :=
  let a : F := neg (bound nInp nOut)
  let b : F := neg a
  let sd : F := div (sub b a) (sqrt (ofNat 12))
  [(le (abs (sub (meanOf (x :: xs)) zero)) (lit 1 10000), lt (lit 1 10000) (abs (sub (meanOf (x :: xs)) zero))),
   (le (abs (sub (stddevOf (x :: xs)) sd)) (lit 1 10000), lt (lit 1 10000) (abs (sub (stddevOf (x :: xs)) sd))),
   (le a (minOf x xs), !le a (minOf x xs)),
   (le (maxOf x xs) b, !le (maxOf x xs) b),
   (le (abs (sub (minOf x xs) a)) (lit 1 10000), lt (lit 1 10000) (abs (sub (minOf x xs) a))),
   (le (abs (sub (maxOf x xs) b)) (lit 1 10000), lt (lit 1 10000) (abs (sub (maxOf x xs) b)))]

/-- The number of failures in a log. -/
def failures (l : List (Bool × Bool)) : Nat := (l.filter Prod.snd).length

/-- The counters belong to the log. -/
structure Tally.Sound (t : Tally) : Prop where
  tests : t.tests = t.log.length
  fails : t.fails = failures t.log

omit [FloatOps F] in
theorem Tally.Sound.check {t : Tally} (h : t.Sound) (a b : Bool) : (t.check a b).Sound where
  tests := by simp [Tally.check, h.tests]
  fails := by cases b <;> simp [Tally.check, failures, h.fails]

theorem kaimingChecks_eq (nInp nOut a : Nat) (bias xs rest : List F) (hb : bias.length = nOut) (hx : xs.length = nInp * nOut)
    (h2 : 2 ≤ nInp * nOut) (hs : nInp * nOut < 2 ^ 32) (t : Tally) (ht : t.Sound) :
    ∃ t', kaimingChecks nInp nOut ⟨a, bias ++ (xs ++ rest)⟩ t = .ok t' ∧ t'.Sound ∧ t'.log = t.log ++ kaimingLog nInp xs := by
  have e : (⟨a, bias ++ (xs ++ rest)⟩ : View F).offset nOut = ⟨a + 4 * nOut, xs ++ rest⟩ := by
    simp [View.offset, ← hb]
  rw [kaimingChecks, e, calcMean_eq _ _ _ hx, calcStddev_eq _ _ _ hx h2 hs]
  refine ⟨_, rfl, (ht.check _ _).check _ _, ?_⟩
  simp [Tally.checkFloat, Tally.check, kaimingLog]

theorem xavierChecks_eq (nInp nOut a : Nat) (bias : List F) (x : F) (xs rest : List F) (hb : bias.length = nOut)
    (hx : (x :: xs).length = nInp * nOut) (h2 : 2 ≤ nInp * nOut) (hs : nInp * nOut < 2 ^ 32) (t : Tally) (ht : t.Sound) :
    ∃ t', xavierChecks nInp nOut ⟨a, bias ++ (x :: xs ++ rest)⟩ t = .ok t' ∧ t'.Sound ∧ t'.log = t.log ++ xavierLog nInp nOut x xs := by
  have e : (⟨a, bias ++ (x :: xs ++ rest)⟩ : View F).offset nOut = ⟨a + 4 * nOut, x :: xs ++ rest⟩ := by
    simp [View.offset, ← hb]
  have hx' : xs.length + 1 = nInp * nOut := hx
  rw [xavierChecks, e, calcMean_eq _ _ _ hx, calcStddev_eq _ _ _ hx h2 hs]
  simp only [bind, Except.bind, calcMax_eq _ _ _ _ hx', calcMin_eq _ _ _ _ hx']
  refine ⟨_, rfl, (((((ht.check _ _).check _ _).check _ _).check _ _).check _ _).check _ _, ?_⟩
  simp [Tally.checkFloat, Tally.checkCond, Tally.check, xavierLog, bound]

theorem compareLoop_eq (a b : Nat) (xs ys : List F) : ∀ (k i : Nat) (t : Tally), i + k ≤ xs.length → i + k ≤ ys.length → t.Sound →
    ∃ t', compareLoop ⟨a, xs⟩ ⟨b, ys⟩ k i t = .ok t' ∧ t'.Sound ∧
      t'.log = t.log ++ List.zipWith (fun x y => (le (abs (sub x y)) (lit 1 10000000), lt (lit 1 10000000) (abs (sub x y))))
        ((xs.drop i).take k) ((ys.drop i).take k)
  | 0, _, t, _, _, ht => ⟨t, rfl, ht, by simp⟩
  | k + 1, i, t, h1, h2, ht => by
    obtain ⟨t', e, s, l⟩ := compareLoop_eq a b xs ys k (i + 1)
      (t.checkFloat (xs[i]'(by omega)) (ys[i]'(by omega)) (lit 1 10000000)) (by omega) (by omega) (ht.check _ _)
    refine ⟨t', ?_, s, ?_⟩
    · rw [compareLoop, load_ok (v := ⟨a, xs⟩) (show i < xs.length by omega), load_ok (v := ⟨b, ys⟩) (show i < ys.length by omega)]
      exact e
    · rw [l, drop_take_cons (by omega), drop_take_cons (by omega)]
      simp [Tally.checkFloat, Tally.check]

end NN.TestNet
