import Verif.Properties.Exp256
/-
C17: softmax never evaluates the exponential at a positive number, so it cannot overflow.
-/
namespace NN

/-- Exact arithmetic, with arbitrary functions in place of `expf` and of the vector exponential. -/
@[instance_reducible] noncomputable def opsExp (e e8 : ℝ → ℝ) : FloatOps ℝ :=
  { (inferInstance : FloatOps ℝ) with exp := e, exp8 := e8 }

theorem vsumF_opsExp (e e8 : ℝ → ℝ) (lo : ℕ) (l : List ℝ) (k : ℕ) : @vsumF ℝ (opsExp e e8) lo l k = vsumF lo l k := by
  induction k with
  | zero => rfl
  | succ k ih => simp only [vsumF, ih]; rfl

theorem softmaxSumF_opsExp (e e8 : ℝ → ℝ) (c : Cfg) (addr : ℕ) (l : List ℝ) :
    @softmaxSumF ℝ (opsExp e e8) c addr l.length l = l.sum := by
  rw [← softmaxSumF_real c addr l]
  unfold softmaxSumF
  simp only [vsumF_opsExp]
  rfl

/-- **C17** The exponential functions only have to be right for arguments up to 0: whatever they give for positive arguments
(infinity, say), softmax is the textbook function, in every build and at every address. -/
theorem C17_no_overflow (e e8 : ℝ → ℝ) (he : ∀ x ≤ 0, e x = Real.exp x) (he8 : ∀ x ≤ 0, e8 x = Real.exp x)
    (env : CustomEnv ℝ) (c : Cfg) (n : ℕ) (y : View ℝ) (h1 : 1 ≤ n) (hn : n ≤ y.data.length) :
    @activate ℝ (opsExp e e8) env c .softmax n y = .ok ⟨y.addr, Spec.softmax (y.data.take n) ++ y.data.drop n⟩ := by
  rw [@activate_eq' ℝ (opsExp e e8) env c .softmax n y (fun _ => h1) hn (fun h => by simp at h)]
  have hlen : (y.data.take n).length = n := by simp; omega
  set l := y.data.take n with hl
  have hne : l ≠ [] := by
    intro h; rw [h] at hlen; simp at hlen; omega
  obtain ⟨-, hmax⟩ := maxF_spec l hne
  have hE : applyTo (@softmaxExpOp ℝ (opsExp e e8) c y.addr l.length (maxF l)) l.length l =
      applyTo (softmaxExpOp c y.addr l.length (maxF l)) l.length l := by
    apply List.ext_getElem (by simp)
    intro i i1 i2
    have i3 : i < l.length := by simpa using i2
    have hx : l[i] - maxF l ≤ 0 := by have := hmax l[i] (List.getElem_mem i3); linarith
    simp only [applyTo, List.getElem_mapIdx, i3, if_true]
    unfold softmaxExpOp regionOp
    split
    · beta_reduce; split
      · exact he8 _ hx
      · exact he _ hx
    · exact he _ hx
  have hout : @activateF ℝ (opsExp e e8) env c .softmax y.addr l = Spec.softmax l := by
    rw [← softmaxF_real c y.addr l]
    show (let exps := applyTo (@softmaxExpOp ℝ (opsExp e e8) c y.addr l.length (maxF l)) l.length l
      let sum := @softmaxSumF ℝ (opsExp e e8) c y.addr l.length exps; exps.map fun x => x / sum) = _
    unfold softmaxF
    simp only [hE]
    set E := applyTo (softmaxExpOp c y.addr l.length (maxF l)) l.length l
    have hEl : l.length = E.length := by simp [E]
    rw [hEl, softmaxSumF_opsExp, softmaxSumF_real]
    rfl
  rw [hout]

/-- With an exponential that is -1 for every positive number. -/
example (env : CustomEnv ℝ) : let e : ℝ → ℝ := fun x => if x ≤ 0 then Real.exp x else -1
    @activate ℝ (opsExp e e) env ⟨.avx, true, true⟩ .softmax 3 ⟨4, [1000, -5, 1001, 7]⟩ =
      .ok ⟨4, Spec.softmax [1000, -5, 1001] ++ [7]⟩ := by
  intro e
  have := C17_no_overflow e e (fun x hx => by simp [e, hx]) (fun x hx => by simp [e, hx]) env ⟨.avx, true, true⟩ 3
    ⟨4, [1000, -5, 1001, 7]⟩ (by norm_num) (by simp)
  simpa using this

end NN
