import Verif.Model.Trainer
import Verif.Properties.Lifecycle
import Verif.Properties.Callbacks
import Verif.Properties.Logger
/-
Lemmas about the main loop of examples/general-trainer.c.
-/
set_option linter.unusedSimpArgs false

namespace NN.Trainer
open FloatOps NN.Spec
variable {F : Type} [FloatOps F]

/-- The file of the checkpoints. -/
abbrev ckpt : String := "checkpoint.npz"

/-- A run of the optimizer: the calls in order, and after each of them the network and the metrics it wrote. -/
inductive Trains (env : CustomEnv F) (c : Cfg) (r : ℕ → ℕ) : List (EpochCall F) → Statics F × AnyOpt F × ℕ →
    List (Net F × View F) → Statics F × AnyOpt F × ℕ → Prop
  | nil (x) : Trains env c r [] x [] x
  | cons {k : EpochCall F} {ks st s q st' s' q' res ns y} (h : k.run env c r q st s = .ok (st', s', q', res))
      (t : Trains env c r ks (st', s', q') ns y) : Trains env c r (k :: ks) (st, s, q) ((s'.opt.nn, res) :: ns) y

theorem Trains.length {env : CustomEnv F} {c : Cfg} {r : ℕ → ℕ} {ks x ns y} (h : Trains env c r ks x ns y) :
    ns.length = ks.length := by
  induction h with
  | nil => rfl
  | cons _ _ ih => simp [ih]

/-! ### Early stopping -/

/-- With patience 10, ten calls are not enough. -/
theorem es_step {k : CallbackArgs F} {es es' : EsStatics F × EarlyStopping} (h : earlystoppingRun k es = .ok es') {i : ℕ}
    (hi : i < 10) (hp : es.2.patience = 10) (hf : es.2.flag = false) (hs : es.1.since ≤ i) :
    es'.2.patience = 10 ∧ es'.2.flag = false ∧ es'.1.since ≤ i + 1 := by
  unfold earlystoppingRun at h
  obtain ⟨score, -, h⟩ := bind_ok h
  split_ifs at h with h1 h2 h3
  · simp only [pure, Except.pure, Except.ok.injEq] at h
    subst h
    exact ⟨hp, hf, Nat.zero_le _⟩
  · rw [hp] at h3
    exfalso
    push_cast at h3
    omega
  · simp only [pure, Except.pure, Except.ok.injEq] at h
    subst h
    exact ⟨hp, hf, by simpa using hs⟩

/-- What a turn of the loop consists of. -/
theorem epoch_inv {lb : Lib F} {sys : Sys F} {recs : List ActRecord} {data : Data F} {nm i : ℕ} {s s' : State F}
    (h : epoch lb sys recs data nm i s = .ok s') :
    ∃ res, (call sys data nm i).run lb.env lb.c sys.rand s.q s.st s.o = .ok (s'.st, s'.o, s'.q, res) ∧
      earlystoppingRun ⟨metricsArray s'.st s'.o.opt.metrics, res, true⟩ s.es = .ok s'.es := by
  unfold epoch at h
  obtain ⟨⟨st, o, q, res⟩, h1, h⟩ := bind_ok h
  obtain ⟨⟨best, d⟩, h2, h⟩ := bind_ok h
  obtain ⟨⟨lg, d', out⟩, h3, h⟩ := bind_ok h
  obtain ⟨es, h4, h⟩ := bind_ok h
  simp only [pure, Except.pure, Except.ok.injEq] at h
  subst h
  exact ⟨res, h1, h4⟩

/-- Whatever happens in the epochs, the loop does not end before the tenth. -/
theorem loop_trains {lb : Lib F} {sys : Sys F} {recs : List ActRecord} {data : Data F} {nm : ℕ} (todo : ℕ) :
    ∀ {i : ℕ} {s s' : State F}, loop lb sys recs data nm todo i s = .ok s' → i + todo ≤ 10 → s.es.2.patience = 10 →
      s.es.2.flag = false → s.es.1.since ≤ i →
      ∃ ns, Trains lb.env lb.c sys.rand ((List.range' i todo).map (call sys data nm)) (s.st, s.o, s.q) ns (s'.st, s'.o, s'.q) ∧
        s'.es.2.flag = false := by
  induction todo with
  | zero =>
    intro i s s' h _ _ hf _
    simp only [loop, pure, Except.pure, Except.ok.injEq] at h
    subst h
    exact ⟨[], .nil _, hf⟩
  | succ todo ih =>
    intro i s s' h hi hp hf hs
    rw [loop] at h
    obtain ⟨s1, h1, h⟩ := bind_ok h
    obtain ⟨res, h2, h3⟩ := epoch_inv h1
    obtain ⟨e1, e2, e3⟩ := es_step h3 (by omega) hp hf hs
    rw [show earlystoppingDoStop (some s1.es.2) = false from e2] at h
    obtain ⟨ns, h4, h5⟩ := ih (by simpa using h) (by omega) e1 e2 e3
    exact ⟨_, .cons h2 h4, h5⟩

/-! ### Checkpoints -/

omit [FloatOps F] in
/-- A network that can be stored has a file. -/
theorem save_bytes {zip : ZipLib} (hzip : zip.Lawful) {bits : FloatBits F} (hbits : bits.Lawful) (recs : List ActRecord) {c : Cfg}
    {nn : Net F} (hs : Storable c nn) (f : String) (hf : (str f).length ≤ 128) :
    ∃ s : Bytes, ∀ d : Disk, d.writable f = true → saveNN zip bits recs d (some nn) (some f) =
      .ok { d with content := fun g => if g = f then some s else d.content g } := by
  obtain ⟨d', h, -⟩ := C49_roundtrip hbits hzip (d := ⟨fun _ => none, fun _ => true, fun _ => true⟩) (f := f) rfl rfl hf hs recs
  have hf' : ¬ maxFilenameLen < (str f).length := by simpa [maxFilenameLen] using hf
  simp only [saveNN, if_neg hf'] at h
  obtain ⟨l, h1, h⟩ := bind_ok h
  obtain ⟨⟨n, d1⟩, h2, h⟩ := bind_ok h
  simp only [listSave, listSaveCompressed] at h2
  split_ifs at h2 with h3
  · exfalso
    simp only [List.isEmpty_iff, List.map_eq_nil_iff] at h3
    subst h3
    unfold saveArrays at h1
    obtain ⟨a, -, h1⟩ := bind_ok h1
    simp [pure, Except.pure] at h1
  · obtain ⟨⟨n', es⟩, h4, h2⟩ := bind_ok h2
    refine ⟨zip.close es, fun d hd => ?_⟩
    simp only [saveNN, if_neg hf', h1, bind, Except.bind, listSave, listSaveCompressed, if_neg h3, hd, if_true, h4]
    rfl

/-- The bytes of the file (nothing for networks that cannot be stored). -/
noncomputable def fileOf (zip : ZipLib) (bits : FloatBits F) (recs : List ActRecord) (f : String) (nn : Net F) : Bytes :=
  open Classical in
  if h : ∃ s : Bytes, ∀ d : Disk, d.writable f = true → saveNN zip bits recs d (some nn) (some f) =
      .ok { d with content := fun g => if g = f then some s else d.content g } then h.choose else []

omit [FloatOps F] in
theorem save_fileOf {zip : ZipLib} (hzip : zip.Lawful) {bits : FloatBits F} (hbits : bits.Lawful) (recs : List ActRecord) {c : Cfg}
    {nn : Net F} (hs : Storable c nn) (f : String) (hf : (str f).length ≤ 128) (d : Disk) (hd : d.writable f = true) :
    saveNN zip bits recs d (some nn) (some f) =
      .ok { d with content := fun g => if g = f then some (fileOf zip bits recs f nn) else d.content g } := by
  have h := save_bytes hzip hbits recs hs f hf
  rw [fileOf, dif_pos h]
  exact h.choose_spec d hd

/-- The callback seen as acting on the contents of its file alone. -/
abbrev saveTo (file : Net F → Bytes) : Net F → String → Option Bytes → M (Option Bytes) := fun nn _ _ => .ok (some (file nn))

theorem ckpt_step {save : Net F → String → Disk → M Disk} {file : Net F → Bytes} {nn : Net F} {k : CallbackArgs F} {score best : F}
    {d : Disk} (hk : monitoredScore (-1) k = .ok score)
    (hs : save nn ckpt d = .ok { d with content := fun g => if g = ckpt then some (file nn) else d.content g }) :
    ∃ best' d', checkpointRun save ⟨none, -1, false⟩ nn k (best, d) = .ok (best', d') ∧
      checkpointRun (saveTo file) ⟨none, -1, false⟩ nn k (best, d.content ckpt) = .ok (best', d'.content ckpt) ∧
      d'.readable = d.readable ∧ d'.writable = d.writable ∧ ∀ g, g ≠ ckpt → d'.content g = d.content g := by
  have hfile : Checkpoint.file ⟨none, -1, false⟩ = ckpt := rfl
  simp only [checkpointRun, hk, bind, Except.bind, hfile]
  split_ifs with h
  · rw [hs]
    exact ⟨_, _, rfl, by simp [pure, Except.pure], rfl, rfl, fun g hg => by simp [hg]⟩
  · exact ⟨_, _, rfl, rfl, rfl, rfl, fun _ _ => rfl⟩

/-! ### The loop -/

theorem es_ok {k : CallbackArgs F} {score : F} {es : EsStatics F × EarlyStopping} (hk : monitoredScore (-1) k = .ok score) {i : ℕ}
    (hi : i < 10) (hcb : es.2 = ⟨10, -1, false, false⟩) (hs : es.1.since ≤ i) :
    ∃ es', earlystoppingRun k es = .ok es' ∧ es'.2 = ⟨10, -1, false, false⟩ ∧ es'.1.since ≤ i + 1 := by
  obtain ⟨⟨best, since⟩, cb⟩ := es
  simp only at hcb hs
  subst hcb
  have h31 : since + 1 < 2 ^ 31 := by omega
  have h10 : ¬ (10 : ℤ) < ((since + 1 : ℕ) : ℤ) := by push_cast; omega
  simp only [earlystoppingRun, hk, bind, Except.bind, h31, if_true, h10, if_false]
  split_ifs
  · exact ⟨_, rfl, rfl, Nat.zero_le _⟩
  · exact ⟨_, rfl, rfl, by simpa using hs⟩

omit [FloatOps F] in
theorem log_step {fmt : F → Bytes} {t : Time} {k : CallbackArgs F} {n : ℤ} {log : Option String} {d : Disk} {line : Bytes}
    (hl : logLine fmt t n k = .ok line) (hn : n + 1 < 2 ^ 31) (hw : ∀ f, log = some f → d.writable f = true) :
    ∃ d' out, loggerRun fmt t k ⟨n, log, false⟩ d = .ok (⟨n + 1, log, false⟩, d', out) ∧ d'.readable = d.readable ∧
      d'.writable = d.writable ∧ (∀ f, log = some f → d'.content f = some ((d.content f).getD [] ++ line)) ∧
      ∀ g, some g ≠ log → d'.content g = d.content g := by
  simp only [loggerRun, hl, bind, Except.bind, hn, if_true]
  cases log with
  | none => exact ⟨_, _, rfl, rfl, rfl, by simp, fun _ _ => rfl⟩
  | some f =>
    simp only [hw f rfl, if_true]
    refine ⟨_, _, rfl, rfl, rfl, ?_, ?_⟩
    · intro f' hf
      simp only [Option.some.injEq] at hf
      subst hf
      simp
    · intro g hg
      have : g ≠ f := fun h => hg (by rw [h])
      simp [this]

/-- The first of the metrics, evaluated with the network on the verification set. -/
def ScoreOf (lb : Lib F) (ep : EpochCall F) (data : Data F) (ms : List Metric) (rest : List (Option Metric)) (nn : Net F) (sc : F) :
    Prop :=
  ∃ v r : View F, ms.length ≤ v.data.length ∧ r.data.head? = some sc ∧ evaluate lb.env lb.c ep.evalMemV ep.schedV nn data.nVerify
    data.verifyX data.verifyY (ms.map some ++ none :: rest) v = .ok r

/-- An epoch stores it behind the metrics of the training set. -/
theorem call_score {lb : Lib F} {loss : Loss} {nn1 : Net F} {bs : ℕ} {ms : List Metric}
    {rest : List (Option Metric)} {sys : Sys F} {data : Data F} {i : ℕ} (h : (call sys data ms.length i).OK lb.c loss nn1 bs ms)
    {r : ℕ → ℕ} {q q' : ℕ} {st st' : Statics F} {s s' : AnyOpt F} {res : View F}
    (hrun : (call sys data ms.length i).run lb.env lb.c r q st s = .ok (st', s', q', res)) (hR : s'.Ready lb.c nn1 bs)
    (hM : metricsArray st' s'.opt.metrics = ms.map some ++ none :: rest) (hp : 0 < data.nVerify) {sc : F}
    (hsc : res.data[ms.length]? = some sc) :
    ScoreOf lb (sys.epoch i) data ms rest s'.opt.nn sc := by
  obtain ⟨k, hk⟩ : ∃ k, k = call sys data ms.length i := ⟨_, rfl⟩
  rw [← hk] at h hrun
  obtain ⟨w, hwl, hnn⟩ := hR.nn
  have hwf := (h.train.setParams _ hwl).wf
  rw [← hnn] at hwf
  have hi : s'.opt.nn.nInput = nn1.nInput := by rw [hnn]; exact withParams_nInput nn1.layers _ _ _
  have ho : s'.opt.nn.nOutput = nn1.nOutput := by rw [hnn]; exact withParams_nOutput nn1.layers _ _ _
  have hroom := h.room
  have hrep := C37_after_epoch _ lb.env lb.c _ _ _ _ _ _ _ _ _ _ _ _ _ _ _ _ _ _ _ hrun
  rw [show ((anyKind lb.env lb.c k.mem k.fuel k.n k.X k.Y).opt s') = s'.opt from rfl, hM] at hrep
  obtain ⟨train, l1, h1⟩ := C24_safe lb.env lb.c k.evalMem k.sched s'.opt.nn k.n h.sched k.X k.Y ms rest k.results hwf h.evalMem
    (by rw [hi]; exact h.train.xlen) (by rw [ho]; exact h.train.ylen) (by omega)
  have hv : k.valid = some (data.verifyX, data.verifyY) := by rw [hk]; rfl
  have hn : k.nValid = data.nVerify := by rw [hk]; rfl
  have hpk : 0 < k.nValid := by rw [hn]; exact hp
  simp only [report, metricList_eq, h1, bind, Except.bind, hv, hpk, if_true] at hrep
  obtain ⟨tail, h2, h3⟩ := bind_ok hrep
  simp only [pure, Except.pure, Except.ok.injEq] at h3
  subst h3
  refine ⟨_, tail, ?_, ?_, by rw [← hn, show (sys.epoch i).evalMemV = k.evalMemV by rw [hk]; rfl,
    show (sys.epoch i).schedV = k.schedV by rw [hk]; rfl]; exact h2⟩
  · simp only [View.offset, List.length_drop, List.length_append, l1]
    omega
  have hlen : ((train ++ k.results.data.drop ms.length).take ms.length).length = ms.length := by
    rw [List.length_take, List.length_append, l1]; omega
  simp only [putGrad] at hsc
  rw [List.getElem?_append_right (by omega), hlen, Nat.sub_self] at hsc
  rw [List.head?_eq_getElem?]
  exact hsc

/-- What the callbacks see. -/
abbrev argsOf (ma : List (Option Metric)) (n : Net F × View F) : CallbackArgs F := ⟨ma, n.2, true⟩

theorem loop_ok {lb : Lib F} {sys : Sys F} {recs : List ActRecord} {data : Data F} {loss : Loss} {nn1 : Net F} {bs : ℕ}
    (hbs : 1 ≤ bs) {ms : List Metric} (hm1 : 1 ≤ ms.length) (hm2 : ms.length ≤ 2) (rest : List (Option Metric))
    (hcall : ∀ i, (call sys data ms.length i).OK lb.c loss nn1 bs ms) {file : Net F → Bytes}
    (hsave : ∀ w : List F, w.length = nParams nn1.layers → ∀ d : Disk, d.writable ckpt = true →
      saveNN lb.zip lb.bits recs d (some (nn1.setParams w)) (some ckpt) =
        .ok { d with content := fun g => if g = ckpt then some (file (nn1.setParams w)) else d.content g })
    (hfmt : ∀ x, ∀ c ∈ sys.fmt x, c ≠ 0 ∧ c ≠ 10) (hfmt2 : ∀ x, (sys.fmt x).length ≤ 12) (hclock : ∀ i, (sys.clock i).OK)
    {log : Option String} (hlog : log ≠ some ckpt) (e : ℕ) (he : e + 10 < 2 ^ 31) (todo : ℕ) :
    ∀ (i : ℕ) (s : State F), i + todo ≤ 10 → s.o.Ready lb.c nn1 bs → PivotInv s.st.nSample s.o.opt.pivot →
      metricsArray s.st s.o.opt.metrics = ms.map some ++ none :: rest → s.es.2 = ⟨10, -1, false, false⟩ → s.es.1.since ≤ i →
      s.lg = ⟨(e + i : ℕ), log, false⟩ → s.d.writable ckpt = true → (∀ f, log = some f → s.d.writable f = true) →
      ∃ (ns : List (Net F × View F)) (s' : State F) (scores : List F) (lines : List Bytes),
        Trains lb.env lb.c sys.rand ((List.range' i todo).map (call sys data ms.length)) (s.st, s.o, s.q) ns
          (s'.st, s'.o, s'.q) ∧
        loop lb sys recs data ms.length todo i s = .ok s' ∧
        List.Forall₂ (fun n sc => n.2.data[ms.length]? = some sc) ns scores ∧
        (data.nVerify = 0 → ∀ (j : ℕ) sc, scores[j]? = some sc → sc = sys.stack (i + j) ms.length) ∧
        (0 < data.nVerify → ∀ (j : ℕ) n sc, ns[j]? = some n → scores[j]? = some sc →
          ScoreOf lb (sys.epoch (i + j)) data ms rest n.1 sc) ∧
        (∀ n ∈ ns, ∃ w : List F, w.length = nParams nn1.layers ∧ n.1 = nn1.setParams w) ∧
        checkpointRuns (saveTo file) ⟨none, -1, false⟩ (ns.map fun n => (n.1, argsOf (ms.map some ++ none :: rest) n))
          (s.best, s.d.content ckpt) = .ok (s'.best, s'.d.content ckpt) ∧
        s'.d.readable = s.d.readable ∧ s'.d.writable = s.d.writable ∧
        (∀ f, log = some f → lines.length = todo ∧
          (∀ (j : ℕ) line, lines[j]? = some line → EpochLine (e + i + j : ℕ) line) ∧
          s'.d.content f = if todo = 0 then s.d.content f else some ((s.d.content f).getD [] ++ lines.flatten)) ∧
        (∀ g, g ≠ ckpt → some g ≠ log → s'.d.content g = s.d.content g) := by
  induction todo with
  | zero =>
    intro i s _ _ _ _ _ _ _ _ _
    exact ⟨[], s, [], [], .nil _, rfl, .nil, by simp, by simp, by simp, rfl, rfl, rfl,
      fun f _ => ⟨rfl, by simp, by simp⟩, fun _ _ _ => rfl⟩
  | succ todo ih =>
    intro i s hi hR hP hM hes hsince hlg hw hwl
    obtain ⟨st1, o1, q1, train, val, hrun, ht, hv, hR1, hP1, hM1⟩ := epochCall_ok lb.env lb.c loss nn1 bs hbs ms rest
      (call sys data ms.length i) (hcall i) sys.rand s.q s.st s.o hR hP hM
    obtain ⟨res, hres⟩ : ∃ res : View F, res = ⟨(call sys data ms.length i).results.addr, train ++
        if (call sys data ms.length i).valid.isSome ∧ 0 < (call sys data ms.length i).nValid then
          val ++ (call sys data ms.length i).results.data.drop (2 * ms.length)
        else (call sys data ms.length i).results.data.drop ms.length⟩ := ⟨_, rfl⟩
    rw [← hres] at hrun
    have hlen : 2 * ms.length ≤ res.data.length := by
      have := (hcall i).room
      rw [hres]
      simp only [List.length_append, ht]
      split_ifs
      · rw [List.length_append, hv]; omega
      · rw [List.length_drop]; omega
    obtain ⟨score, hscore⟩ : ∃ score, res.data[ms.length]? = some score :=
      ⟨_, List.getElem?_eq_getElem (show ms.length < res.data.length by omega)⟩
    obtain ⟨w, hwlen, hnn⟩ := hR1.nn
    have hmon : monitoredScore (-1) (argsOf (ms.map some ++ none :: rest) (o1.opt.nn, res)) = .ok score :=
      C39_score ms rest res true (-1) ms.length (by simp) score hscore
    obtain ⟨best1, d1, c1, c2, c3, c4, c5⟩ := ckpt_step (save := fun nn f d => saveNN lb.zip lb.bits recs d (some nn) (some f))
      (file := file) (nn := o1.opt.nn) (best := s.best) (d := s.d) hmon (by rw [hnn]; exact hsave w hwlen s.d hw)
    obtain ⟨line, hline⟩ := C59_partial sys.fmt hfmt2 (sys.clock i) (hclock i) ((e + i : ℕ) : ℤ) (by omega) (by omega) ms rest res
      true (by simp; omega) (by simpa using hlen)
    obtain ⟨l1, -⟩ := logLine_line sys.fmt hfmt (sys.clock i) (hclock i) _ _ hline
    obtain ⟨es1, e1, e2, e3⟩ := es_ok (es := s.es) hmon (show i < 10 by omega) hes hsince
    have hlt : ((e + i : ℕ) : ℤ) + 1 < 2 ^ 31 := by omega
    have hcount : ((e + i : ℕ) : ℤ) + 1 = ((e + (i + 1) : ℕ) : ℤ) := by push_cast; ring
    obtain ⟨d2, out, hlogrun, hd2r, hd2w, hd2f, hd2o⟩ := log_step (d := d1) (log := log) (k := argsOf (ms.map some ++ none :: rest)
      (o1.opt.nn, res)) hline hlt (fun f hf => by rw [c4]; exact hwl f hf)
    rw [hcount, ← hlg] at hlogrun
    have hd2c : d2.content ckpt = d1.content ckpt := hd2o _ (Ne.symm hlog)
    have hepoch : epoch lb sys recs data ms.length i s =
        .ok ⟨st1, o1, q1, best1, es1, ⟨((e + (i + 1) : ℕ) : ℤ), log, false⟩, d2⟩ := by
      simp only [epoch, hrun, bind, Except.bind, hM1, c1, hlogrun, e1]
      rfl
    obtain ⟨ns, s', scores, lines, g1, g2, g3, g0, gs, g4, g5, g6, g7, g8, g9⟩ := ih (i + 1)
      ⟨st1, o1, q1, best1, es1, ⟨((e + (i + 1) : ℕ) : ℤ), log, false⟩, d2⟩ (by omega) hR1 hP1 hM1 e2 e3 rfl
      (by simp only [hd2w, c4, hw]) (fun f hf => by simp only [hd2w, c4, hwl f hf])
    refine ⟨(o1.opt.nn, res) :: ns, s', score :: scores, line :: lines, .cons hrun g1, ?_, .cons hscore g3, ?_, ?_, ?_, ?_, ?_, ?_, ?_, ?_⟩
    · rw [loop, hepoch]
      simp only [bind, Except.bind, earlystoppingDoStop, e2, Bool.false_eq_true, if_false]
      exact g2
    · intro hz j sc hj
      cases j with
      | zero =>
        simp only [List.getElem?_cons_zero, Option.some.injEq] at hj
        subst hj
        have hnv : ¬ ((call sys data ms.length i).valid.isSome ∧ 0 < (call sys data ms.length i).nValid) := by
          rw [show (call sys data ms.length i).nValid = 0 from hz]; simp
        rw [hres, if_neg hnv, List.getElem?_append_right (by omega), ht, Nat.sub_self, List.getElem?_drop, Nat.add_zero] at hscore
        have hs : ((List.range (2 * ms.length)).map (sys.stack i))[ms.length]? = some score := hscore
        rw [List.getElem?_map, List.getElem?_range (by omega)] at hs
        simpa using hs.symm
      | succ j =>
        have := g0 hz j sc (by simpa using hj)
        rwa [show i + 1 + j = i + (j + 1) by omega] at this
    · intro hp j n sc hn hj
      cases j with
      | zero =>
        simp only [List.getElem?_cons_zero, Option.some.injEq] at hj hn
        subst hj hn
        exact call_score (hcall i) hrun hR1 hM1 hp hscore
      | succ j =>
        have := gs hp j n sc (by simpa using hn) (by simpa using hj)
        rwa [show i + 1 + j = i + (j + 1) by omega] at this
    · intro n hn
      rcases List.mem_cons.1 hn with rfl | hn
      · exact ⟨w, hwlen, hnn⟩
      · exact g4 n hn
    · rw [List.map_cons, checkpointRuns, List.foldlM_cons]
      simp only [c2, bind, Except.bind]
      rw [← hd2c]
      exact g5
    · rw [g6, hd2r, c3]
    · rw [g7, hd2w, c4]
    · intro f hf
      obtain ⟨k1, k2, k3⟩ := g8 f hf
      refine ⟨by rw [List.length_cons, k1], ?_, ?_⟩
      · intro j l hl
        cases j with
        | zero =>
          simp only [List.getElem?_cons_zero, Option.some.injEq] at hl
          subst hl
          exact l1
        | succ j =>
          have := k2 j l (by simpa using hl)
          rwa [show e + (i + 1) + j = e + i + (j + 1) by omega] at this
      · have hne : f ≠ ckpt := fun h => hlog (by rw [hf, h])
        have hdf : d2.content f = some ((s.d.content f).getD [] ++ line) := by
          rw [hd2f f hf, c5 f hne]
        rw [k3]
        simp only [hdf, Option.getD_some, Nat.succ_ne_zero, if_false, List.flatten_cons, Nat.add_eq_zero_iff, one_ne_zero,
          and_false, List.append_assoc]
        split_ifs with h0
        · subst h0
          rw [List.length_eq_zero_iff.1 k1]
          simp
        · rfl
    · intro g hg1 hg2
      rw [g9 g hg1 hg2]
      show d2.content g = _
      rw [hd2o g hg2, c5 g hg1]

/-! ### The network -/

theorem storable_alike {c : Cfg} {nn nn' : Net F} (h : Storable c nn) (a : List.Forall₂ Layer.Alike nn.layers nn'.layers) :
    Storable c nn' := by
  refine ⟨Alike.wf a h.wf, ?_, ?_, ?_⟩
  · intro l hl
    obtain ⟨l0, h1, h2, -⟩ := Alike.mem a l hl
    rw [h2.1, h2.2.1]
    exact h.small l0 h1
  · rw [← a.length_eq]; exact h.count
  · intro l hl
    obtain ⟨l0, h1, h2, -⟩ := Alike.mem a l hl
    rw [h2.2.2]
    exact h.act l0 h1

omit [FloatOps F] in
theorem setLoss_deriv {c : Cfg} {nn : Net F} (h : Storable c nn) (recs : List ActRecord) {name : String} {loss : Loss}
    (hl : getLossFunc name = some loss) : ∀ l ∈ (setLoss recs nn name).layers, l.deriv ≠ none := by
  intro l hm
  obtain ⟨i, hi⟩ := List.mem_iff_getElem?.1 hm
  obtain ⟨-, k2, k3⟩ := C11_sets recs nn name loss hl
  have hlt : i < nn.layers.length := by
    rw [← k2]
    exact (List.getElem?_eq_some_iff.1 hi).1
  have := k3 i _ (List.getElem?_eq_getElem hlt)
  rw [hi] at this
  simp only [Option.some.injEq] at this
  rw [this]
  simp only
  split_ifs
  · simp
  · exact builtin_deriv recs (h.act _ (List.getElem_mem hlt))

theorem alike_sizes {nn nn' : Net F} (a : List.Forall₂ Layer.Alike nn.layers nn'.layers) :
    nn'.layers.map (fun l => (l.nIn, l.nOut)) = nn.layers.map (fun l => (l.nIn, l.nOut)) := by
  have := congrArg (List.map fun p : ℕ × ℕ × Act => (p.1, p.2.1)) (Alike.shape a)
  rw [List.map_map, List.map_map] at this
  exact this

end NN.Trainer
