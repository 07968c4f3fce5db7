import Verif.Model.Params
import Verif.Proofs.ForwardReal
/-
`neuralnet_update` and `neuralnet_get_parameters` as operations on the flat parameter vector.
-/
set_option linter.unusedSimpArgs false
set_option linter.unusedSectionVars false

namespace NN
open FloatOps
variable {F : Type}

/-- The parameter vector: for each layer from input to output the biases, then the weights. -/
def params (ls : List (Layer F)) : List F := ls.flatMap fun l => l.bias.data ++ l.weight.data

theorem nParams_cons (l : Layer F) (ls : List (Layer F)) :
    nParams (l :: ls) = l.nOut + l.nIn * l.nOut + nParams ls := by
  simp [nParams, Nat.add_mul]; omega

theorem params_length (c : Cfg) (ls : List (Layer F)) (h : ∀ l ∈ ls, l.WF c) :
    (params ls).length = nParams ls := by
  induction ls with
  | nil => rfl
  | cons l ls ih =>
    have hl := h l (by simp)
    have := ih (fun m hm => h m (by simp [hm]))
    rw [nParams_cons, params, List.flatMap_cons, List.length_append, List.length_append, hl.bias_len,
      hl.weight_len]
    change _ + (params ls).length = _
    rw [this]

/-- Replace the parameters of the layers by those in a flat vector. -/
def withParams : List (Layer F) → List F → List (Layer F)
  | [], _ => []
  | l :: ls, p =>
    { l with bias := ⟨l.bias.addr, p.take l.nOut⟩,
             weight := ⟨l.weight.addr, (p.drop l.nOut).take (l.nIn * l.nOut)⟩ } ::
      withParams ls (p.drop (l.nOut + l.nIn * l.nOut))

theorem withParams_params (c : Cfg) (ls : List (Layer F)) (h : ∀ l ∈ ls, l.WF c) :
    withParams ls (params ls) = ls := by
  induction ls with
  | nil => rfl
  | cons l ls ih =>
    have hl := h l (by simp)
    have e : params (l :: ls) = l.bias.data ++ (l.weight.data ++ params ls) := by simp [params]
    have e1 : (params (l :: ls)).take l.nOut = l.bias.data := by
      rw [e, List.take_append_of_le_length (by rw [hl.bias_len]), List.take_of_length_le (by rw [hl.bias_len])]
    have e2 : (params (l :: ls)).drop l.nOut = l.weight.data ++ params ls := by
      rw [e, ← hl.bias_len, List.drop_left]
    have e3 : (params (l :: ls)).drop (l.nOut + l.nIn * l.nOut) = params ls := by
      rw [← List.drop_drop, e2, ← hl.weight_len, List.drop_left]
    simp only [withParams, e1, e2, e3, ih (fun m hm => h m (by simp [hm]))]
    rw [List.take_append_of_le_length (by rw [hl.weight_len]), List.take_of_length_le (by rw [hl.weight_len])]

theorem params_withParams (ls : List (Layer F)) (p : List F) (hp : p.length = nParams ls) :
    params (withParams ls p) = p := by
  induction ls generalizing p with
  | nil => simp [nParams] at hp; subst hp; rfl
  | cons l ls ih =>
    rw [nParams_cons] at hp
    have := ih (p.drop (l.nOut + l.nIn * l.nOut)) (by simp; omega)
    simp only [withParams, params, List.flatMap_cons]
    change _ ++ params (withParams ls _) = p
    rw [this, ← List.drop_drop, List.append_assoc, List.take_append_drop, List.take_append_drop]

theorem withParams_wf (c : Cfg) (ls : List (Layer F)) (p : List F) (hp : p.length = nParams ls)
    (h : ∀ l ∈ ls, l.WF c) : ∀ l ∈ withParams ls p, l.WF c := by
  induction ls generalizing p with
  | nil => simp [withParams]
  | cons l ls ih =>
    rw [nParams_cons] at hp
    have hl := h l (by simp)
    intro m hm
    simp only [withParams, List.mem_cons] at hm
    rcases hm with rfl | hm
    · exact ⟨hl.in_pos, hl.out_pos, by simp; omega, by simp; omega, hl.weight_al, hl.bias_al⟩
    · exact ih _ (by simp; omega) (fun m hm => h m (by simp [hm])) m hm

theorem withParams_chained (ls : List (Layer F)) (p : List F) (h : Chained ls) :
    Chained (withParams ls p) := by
  induction ls generalizing p with
  | nil => trivial
  | cons l ls ih =>
    cases ls with
    | nil => trivial
    | cons l' ls => exact ⟨h.1, ih _ h.2⟩

theorem nParams_withParams (ls : List (Layer F)) (p : List F) : nParams (withParams ls p) = nParams ls := by
  induction ls generalizing p with
  | nil => rfl
  | cons l ls ih => simp only [withParams, nParams_cons, ih]

theorem withParams_withParams (ls : List (Layer F)) (p q : List F) :
    withParams (withParams ls p) q = withParams ls q := by
  induction ls generalizing p q with
  | nil => rfl
  | cons l ls ih => simp only [withParams, ih]

theorem applyTo_zip_all (f : F → F → F) (n : Nat) (l b : List F) (hl : l.length = n) (hb : n ≤ b.length) :
    applyTo (zipOp f b) n l = List.zipWith f l (b.take n) := by
  rw [applyTo_zip _ _ _ _ hb (by omega), List.take_of_length_le (by omega),
    List.drop_of_length_le (by omega), List.append_nil]

section
variable [FloatOps F]

theorem updateLayers_eq (c : Cfg) (ls : List (Layer F)) (delta : View F) (h : ∀ l ∈ ls, l.WF c)
    (hd : nParams ls ≤ delta.data.length) :
    updateLayers c ls delta = .ok (withParams ls (List.zipWith add (params ls) delta.data)) := by
  induction ls generalizing delta with
  | nil => rfl
  | cons l ls ih =>
    rw [nParams_cons] at hd
    have hl := h l (by simp)
    have hl1 := hl.bias_len
    have hl2 := hl.weight_len
    have hcomm : l.nOut * l.nIn = l.nIn * l.nOut := Nat.mul_comm _ _
    simp only [updateLayers]
    rw [vectorAccumulateUnaligned_eq c l.nOut l.bias delta (by omega) (by omega),
      vectorAccumulateUnaligned_eq c (l.nOut * l.nIn) l.weight _ (by omega)
        (by simp [View.offset]; omega)]
    simp only [bind, Except.bind]
    rw [ih _ (fun m hm => h m (by simp [hm])) (by simp [View.offset]; omega)]
    simp only [pure, Except.pure, withParams, View.offset]
    have e : params (l :: ls) = l.bias.data ++ (l.weight.data ++ params ls) := by simp [params]
    have z1 : List.zipWith add (params (l :: ls)) delta.data =
        List.zipWith add l.bias.data (delta.data.take l.nOut) ++
          List.zipWith add (l.weight.data ++ params ls) (delta.data.drop l.nOut) := by
      rw [e]
      conv_lhs => rw [← List.take_append_drop l.nOut delta.data]
      rw [List.zipWith_append (by simp; omega)]
    have z2 : List.zipWith add (l.weight.data ++ params ls) (delta.data.drop l.nOut) =
        List.zipWith add l.weight.data ((delta.data.drop l.nOut).take (l.nIn * l.nOut)) ++
          List.zipWith add (params ls) ((delta.data.drop l.nOut).drop (l.nIn * l.nOut)) := by
      conv_lhs => rw [← List.take_append_drop (l.nIn * l.nOut) (delta.data.drop l.nOut)]
      rw [List.zipWith_append (by simp; omega)]
    have len1 : (List.zipWith add l.bias.data (delta.data.take l.nOut)).length = l.nOut := by
      simp; omega
    have len2 : (List.zipWith add l.weight.data ((delta.data.drop l.nOut).take (l.nIn * l.nOut))).length =
        l.nIn * l.nOut := by simp; omega
    have d1 : (List.zipWith add (params (l :: ls)) delta.data).take l.nOut =
        List.zipWith add l.bias.data (delta.data.take l.nOut) := by
      rw [z1, List.take_left' len1]
    have d2 : (List.zipWith add (params (l :: ls)) delta.data).drop l.nOut =
        List.zipWith add (l.weight.data ++ params ls) (delta.data.drop l.nOut) := by
      rw [z1, List.drop_left' len1]
    rw [d1, ← List.drop_drop, d2, z2, List.take_left' len2, List.drop_left' len2]
    rw [applyTo_zip_all _ _ _ _ hl1 (by omega), hcomm, applyTo_zip_all _ _ _ _ hl2 (by simp; omega)]

omit [FloatOps F] in
theorem getParametersLoop_eq (c : Cfg) (ls : List (Layer F)) (o : Nat) (p : View F)
    (h : ∀ l ∈ ls, l.WF c) (hp : o + nParams ls ≤ p.data.length) :
    getParametersLoop ls o p =
      .ok ⟨p.addr, p.data.take o ++ (params ls ++ p.data.drop (o + nParams ls))⟩ := by
  induction ls generalizing o p with
  | nil => simp [getParametersLoop, params, nParams, pure, Except.pure]
  | cons l ls ih =>
    rw [nParams_cons] at hp ⊢
    have hl := h l (by simp)
    have hl1 := hl.bias_len
    have hl2 := hl.weight_len
    have hcomm : l.nOut * l.nIn = l.nIn * l.nOut := Nat.mul_comm _ _
    have m1 : memcpyF (p.offset o) l.bias l.nOut =
        .ok ⟨p.addr + 4 * o, l.bias.data ++ p.data.drop (o + l.nOut)⟩ := by
      unfold memcpyF
      rw [if_pos ⟨by simp [View.offset]; omega, by omega⟩, List.take_of_length_le (by omega)]
      simp [View.offset, List.drop_drop]
    have hg1 : (p.data.take o ++ (l.bias.data ++ p.data.drop (o + l.nOut))).drop (o + l.nOut) =
        p.data.drop (o + l.nOut) := by
      rw [← List.append_assoc, List.drop_left' (by simp; omega)]
    have ht1 : (p.data.take o ++ (l.bias.data ++ p.data.drop (o + l.nOut))).take (o + l.nOut) =
        p.data.take o ++ l.bias.data := by
      rw [← List.append_assoc, List.take_left' (by simp; omega)]
    have m2 : memcpyF ((putGrad p o ⟨p.addr + 4 * o, l.bias.data ++ p.data.drop (o + l.nOut)⟩).offset (o + l.nOut))
        l.weight (l.nOut * l.nIn) =
        .ok ⟨p.addr + 4 * (o + l.nOut), l.weight.data ++ p.data.drop (o + l.nOut + l.nIn * l.nOut)⟩ := by
      unfold memcpyF
      simp only [putGrad, View.offset, hg1, hcomm]
      rw [if_pos ⟨by simp; omega, by omega⟩, List.take_of_length_le (by omega)]
      simp [List.drop_drop]
    simp only [getParametersLoop, m1, m2, bind, Except.bind]
    rw [ih _ _ (fun m hm => h m (by simp [hm])) (by simp [putGrad]; omega)]
    simp only [putGrad, ht1]
    have e : params (l :: ls) = l.bias.data ++ (l.weight.data ++ params ls) := by simp [params]
    congr 2
    rw [e]
    have a1 : (p.data.take o ++ l.bias.data ++ (l.weight.data ++ p.data.drop (o + l.nOut + l.nIn * l.nOut))).take
        (o + l.nOut + l.nIn * l.nOut) = p.data.take o ++ l.bias.data ++ l.weight.data := by
      rw [← List.append_assoc, List.take_left' (by simp; omega)]
    have a2 : (p.data.take o ++ l.bias.data ++ (l.weight.data ++ p.data.drop (o + l.nOut + l.nIn * l.nOut))).drop
        (o + l.nOut + l.nIn * l.nOut + nParams ls) = p.data.drop (o + (l.nOut + l.nIn * l.nOut + nParams ls)) := by
      rw [← List.append_assoc, ← List.drop_drop (i := nParams ls), List.drop_left' (by simp; omega), List.drop_drop]
      congr 1; omega
    rw [a1, a2]
    simp

omit [FloatOps F] in
theorem getParameters_eq (c : Cfg) (nn : Net F) (p : View F)
    (h : ∀ l ∈ nn.layers, l.WF c) (hp : nParams nn.layers ≤ p.data.length) :
    getParameters nn p = .ok ⟨p.addr, params nn.layers ++ p.data.drop (nParams nn.layers)⟩ := by
  rw [getParameters, getParametersLoop_eq c nn.layers 0 p h (by omega)]
  simp

theorem update_eq (c : Cfg) (nn : Net F) (delta : View F) (h : ∀ l ∈ nn.layers, l.WF c)
    (hd : nParams nn.layers ≤ delta.data.length) :
    update c nn delta =
      .ok { nn with layers := withParams nn.layers (List.zipWith add (params nn.layers) delta.data) } := by
  rw [update, updateLayers_eq c nn.layers delta h hd]; rfl

end

theorem totalNParametersLoop_eq (ls : List (Layer F)) (count : Nat)
    (h : ∀ l ∈ ls, (l.nIn + 1) * l.nOut < 2 ^ 31) (hc : count < 2 ^ 32) :
    totalNParametersLoop ls count = .ok ((count + nParams ls) % 2 ^ 32) := by
  induction ls generalizing count with
  | nil => simp [totalNParametersLoop, nParams, pure, Except.pure]; omega
  | cons l ls ih =>
    simp only [totalNParametersLoop, h l (by simp), if_true]
    rw [ih _ (fun m hm => h m (by simp [hm])) (Nat.mod_lt _ (by decide))]
    congr 1
    simp only [nParams, List.map_cons, List.sum_cons]
    omega

end NN
