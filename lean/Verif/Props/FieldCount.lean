import Verif.Props.Command
import Verif.Model.FloatText
import Mathlib.Data.Set.Card

/-!
# C117: the documented number of FTLE fields

README.md:257-271 says: `N_FTLE = N_snapshots - (flow_map_period / snapshot_timestep)`, and that each
field "requires 10 consecutive velocity snapshots" for a period of ten time steps.

`val` is the value of a Python float: `Fl.val` for binary64 numbers, `id` for rationals.
-/

namespace Verif

section
variable {K F α : Type} [Zero K] [One K] [Add K] [Sub K] [Mul K] [Div K] [NatCast K] [IntCast K]
  [Min K] [Max K] [NumLits K] [DecidableEq K] [LT K] [DecidableLT K] [Inhabited F]
  (cd : CharData) (float : Str → Option K) (json : Str → List Str) (texts : Str → Option Str)
  (per : K → K → Py ℤ) (lower : String → String)

/-- **C117** (files).  If there were no files in the folder of the experiment, then after the run
there are exactly as many as the experiment has fields, whatever the interleaving of the
processes. -/
theorem C117_files (hl : cd.Lawful)
    (hlow : ∀ s ∈ ["rk4", "euler", "ab2", "cubic", "linear", "nearest", "grid"], lower s = s)
    {argv : List Str} {l m : List (Opt × Str)} (hs : Says cd argv l)
    (hm : FromFile (fun p => (texts p).bind (configItems cd json)) argv l m) {q : Experiment K}
    (hq : Asks cd float texts per (m ++ l) q) (hsens : q.Sensible)
    (hname : q.name.head? ≠ some '/') (d : Disk α) (env : Env K F)
    (hstem : ∀ v ∈ (inRunOrder q.timestep q.velocity).take q.fields, '/' ∉ (env.stem v).toList)
    (hn : (((inRunOrder q.timestep q.velocity).take q.fields).map env.stem).Nodup)
    (htakes : d.Takes ("outputs/".toList ++ q.name) (q.fileNames env.stem))
    (hempty : ∀ n c, d.node (d.target ("outputs/".toList ++ q.name) ++ [n]) ≠ some (.file c))
    {st : Started K F} (hst : (startCommand cd float json texts per lower d argv).2.2 = .ok st)
    {H : Host (Shared K) (List ℕ → K) (Option (List F) × List (Event K F))}
    (hH : st.program.host env = .ok H) (mem : ℕ → List ℕ → K)
    {s₀ s : HostState (Shared K) (Option (List F) × List (Event K F))}
    {as : List (Action (Option (List F) × List (Event K F)))}
    {rs : List (Option (Option (List F) × List (Event K F)))}
    (h₀ : H.init mem = .ok s₀) (h : HostState.Exec H mem s₀ as s)
    (hr : s.pool.phase = .returned rs)
    (order : List ℕ) (ho : order.Perm (List.range q.fields)) (file : Saved K F → α) :
    let r := startCommand (F := F) cd float json texts per lower d argv
    let final := r.1.writeFiles st.folder (st.files file rs order)
    {n | ∃ c, final.1.node (d.target ("outputs/".toList ++ q.name) ++ [n]) =
      some (.file c)}.ncard = q.fields := by
  intro r final
  obtain ⟨-, -, I, k, w, -, hall, hrest⟩ := C105_saved (F := F) cd float json texts per lower hl hlow
    hs hm hq hsens hname d env hstem hn htakes hst hH mem h₀ h hr order ho file
  have hlenV : (inRunOrder q.timestep q.velocity).length = q.velocity.length := by
    unfold inRunOrder
    split <;> simp
  have hfields : q.fields ≤ q.velocity.length := by
    have := hsens.enough
    have := hsens.one_le
    unfold Experiment.fields
    omega
  have hlen : (q.fileNames env.stem).length = q.fields := by
    simp [Experiment.fileNames, hlenV, hfields]
  have hnd : (q.fileNames env.stem).Nodup := by
    have : q.fileNames env.stem = (((inRunOrder q.timestep q.velocity).take q.fields).map
        env.stem).map fun v => ("ftle_" ++ v ++ q.extension).toList := by
      simp only [Experiment.fileNames, List.map_map]
      rfl
    rw [this]
    refine hn.map ?_
    intro a b hab
    simp only [String.toList_append, List.append_cancel_right_eq, List.append_cancel_left_eq] at hab
    exact String.toList_injective hab
  have hset : {n | ∃ c, final.1.node (d.target ("outputs/".toList ++ q.name) ++ [n]) =
      some (.file c)} = ((q.fileNames env.stem).toFinset : Set (List Char)) := by
    ext n
    simp only [Set.mem_ofPred_eq, List.coe_toFinset]
    constructor
    · rintro ⟨c, hc⟩
      by_contra hnot
      rcases hrest (d.target ("outputs/".toList ++ q.name) ++ [n]) (by
        intro n' hn' heq
        have := List.append_cancel_left heq
        simp only [List.cons.injEq, and_true] at this
        exact hnot (this ▸ hn')) with h1 | ⟨-, -, h1⟩
      · exact hempty n c (h1 ▸ hc)
      · have hc : _ = _ := h1.symm.trans hc
        simp at hc
    · intro hmem
      obtain ⟨i, hi, hin⟩ := List.getElem_of_mem hmem
      obtain ⟨t, ps, first, field, saved, -, -, hf, -, -, hnode⟩ := hall i (by omega)
      refine ⟨file saved, ?_⟩
      have : n = ("ftle_" ++ env.stem first ++ q.extension).toList := by
        rw [← hin]
        simp only [Experiment.fileNames, List.getElem_map, List.getElem_take]
        rw [List.getElem?_eq_some_iff] at hf
        obtain ⟨_, hf⟩ := hf
        rw [hf]
      rw [this]
      exact hnode
  rw [hset, Set.ncard_coe_finset, List.toFinset_card_of_nodup hnd, hlen]

end

variable {K : Type} (cd : CharData) (float : Str → Option K) (texts : Str → Option Str)
  (val : K → ℚ)

/-- The number of snapshots of an experiment is that of the values of its two options. -/
theorem Asks.snapshots_eq {l : List (Opt × Str)} {q : Experiment K}
    (hq : Asks cd float texts (fun T h => snapshotsPerPeriod (val T) (val h)) l q)
    {vT vh : Str} {T h : K} (hT : LastValue l .flowMapPeriod vT)
    (hh : LastValue l .snapshotTimestep vh) (fT : float vT = some T) (fh : float vh = some h) :
    snapshotsPerPeriod (val T) (val h) = .ok q.snapshots := by
  obtain ⟨v, T', h1, h2, h3⟩ := hq.snapshots
  obtain ⟨w, h4, h5⟩ := hq.timestep
  cases h1.unique hT
  cases h4.unique hh
  rw [h2] at fT
  cases fT
  rw [h5] at fh
  cases fh
  exact h3

/-- **C117** (exact multiples).  If the period is exactly `k` time steps as binary64 numbers, each
field takes `k + 1` snapshots (not `k`, as README.md:269 says), and the number of fields is the
documented one.  Part of the claim only: see `C117_decimal_partial`. -/
theorem C117_exact_partial {l : List (Opt × Str)} {q : Experiment K}
    (hq : Asks cd float texts (fun T h => snapshotsPerPeriod (val T) (val h)) l q)
    (hsens : q.Sensible) {vT vh : Str} {T h : K} (hT : LastValue l .flowMapPeriod vT)
    (hh : LastValue l .snapshotTimestep vh) (fT : float vT = some T) (fh : float vh = some h)
    (T64 : IsB64 (val T)) (h64 : IsB64 (val h)) (h0 : val h ≠ 0) (k : ℕ) (hk : 0 < k)
    (hTk : val T = k * |val h|) (hmax : k < 2 ^ 1024) :
    q.snapshots = k + 1 ∧ (q.fields : ℚ) = q.velocity.length - val T / |val h| := by
  have h1 := hq.snapshots_eq cd float texts val hT hh fT fh
  rw [C47_exact_partial T64 h64 k hk h0 hTk hmax] at h1
  have h2 : q.snapshots = k + 1 := by
    have := Except.ok.inj h1
    omega
  refine ⟨h2, ?_⟩
  have h3 := hsens.enough
  have h4 : q.fields + k = q.velocity.length := by
    unfold Experiment.fields
    omega
  rw [hTk, mul_div_cancel_right₀ _ (abs_ne_zero.2 h0), ← h4]
  push_cast
  ring

theorem ratio_error {a b x k u : ℚ} (hk : 1 ≤ k) (hb : 0 < b)
    (hbig : x * (k * u) ≤ x * (1 / 16)) (a1 : -(x * u) ≤ b - x) (a2 : b - x ≤ x * u)
    (b1 : -(k * x * u) ≤ a - k * x) (b2 : a - k * x ≤ k * x * u) : |a / b - k| ≤ 1 / 4 := by
  have hu : 0 ≤ x * u := by linarith
  have h1 : x * u ≤ x * (k * u) := by nlinarith
  have hlow : x * (3 / 4) ≤ b := by linarith
  have c1 : k * b ≤ k * x + x * (k * u) := by nlinarith
  have c2 : k * x - x * (k * u) ≤ k * b := by nlinarith
  have hc : k * x * u = x * (k * u) := by ring
  rw [hc] at b1 b2
  rw [div_sub' hb.ne', abs_div, abs_of_pos hb, div_le_iff₀ hb, abs_le, mul_comm b k]
  constructor <;> linarith

/-- **C117** (what holds of decimal numbers).  If the two texts stand for decimal numbers, which
`float` rounds to the nearest binary64 numbers, and the period is `k` time steps, the number of
fields is the documented one or larger by one; in the second case every field takes one snapshot
less.  Part of the claim only: `C117_decimal_fails` shows that the second case
occurs. -/
theorem C117_decimal_partial {l : List (Opt × Str)} {q : Experiment K}
    (hq : Asks cd float texts (fun T h => snapshotsPerPeriod (val T) (val h)) l q)
    (hsens : q.Sensible) {vT vh : Str} {T h : K} (hT : LastValue l .flowMapPeriod vT)
    (hh : LastValue l .snapshotTimestep vh) (fT : float vT = some T) (fh : float vh = some h)
    {xT xh : ℚ} (rT : val T = rne xT) (rh : val h = rne xh) (hsmall : (2 : ℚ) ^ (-1022 : ℤ) ≤ |xh|)
    (k : ℕ) (hk : 0 < k) (hk49 : k ≤ 2 ^ 49) (hTk : xT = k * |xh|) :
    (q.snapshots = k + 1 ∧ (q.fields : ℚ) = q.velocity.length - xT / |xh|) ∨
      q.snapshots = k ∧ (q.fields : ℚ) = q.velocity.length - xT / |xh| + 1 := by
  have hx0 : 0 < |xh| := lt_of_lt_of_le (by positivity) hsmall
  have hk1 : (1 : ℚ) ≤ k := by exact_mod_cast hk
  have hk2 : (k : ℚ) ≤ 2 ^ 49 := by exact_mod_cast hk49
  have hxT : |xT| = k * |xh| := by
    rw [hTk, abs_of_nonneg (by positivity)]
  have e1 := rne_rel (x := xh) hsmall
  have e2 := rne_rel (x := xT) (by
    rw [hxT]
    nlinarith)
  rw [hxT] at e2
  set u : ℚ := (2 : ℚ) ^ (-53 : ℤ) with hu
  have hu' : u = 1 / 2 ^ 53 := by rw [hu]; norm_num
  have hu0 : 0 < u := by rw [hu']; positivity
  have e1' : |(|rne xh| - |xh|)| ≤ |xh| * u := (abs_abs_sub_abs_le _ _).trans e1
  obtain ⟨a1, a2⟩ := abs_le.1 e1'
  obtain ⟨b1, b2⟩ := abs_le.1 e2
  have hpos : 0 < |rne xh| := by
    have : |xh| * u < |xh| := by
      rw [hu']
      nlinarith
    linarith
  have hne : rne xh ≠ 0 := abs_pos.1 hpos
  have hbig : |xh| * (k * u) ≤ |xh| * (1 / 16) := by
    apply mul_le_mul_of_nonneg_left _ hx0.le
    rw [hu', mul_one_div, div_le_iff₀ (by norm_num)]
    linarith [show (1 : ℚ) / 16 * 2 ^ 53 = 2 ^ 49 by norm_num]
  have hq14 : |rne xT / |rne xh| - k| ≤ 1 / 4 := by
    rw [hTk] at b1 b2 ⊢
    exact ratio_error hk1 hpos hbig a1 a2 b1 b2
  have h1 := hq.snapshots_eq cd float texts val hT hh fT fh
  rw [rT, rh] at h1
  have hdiv : xT / |xh| = k := by rw [hTk, mul_div_cancel_right₀ _ hx0.ne']
  have h3 := hsens.enough
  have h5 := hsens.one_le
  rcases C47_rounded_partial k hk (hk49.trans (by norm_num)) hne hq14 with h2 | h2
  · left
    rw [h1] at h2
    have h2 : q.snapshots = k + 1 := by
      have := Except.ok.inj h2
      omega
    refine ⟨h2, ?_⟩
    have h4 : q.fields + k = q.velocity.length := by
      unfold Experiment.fields
      omega
    rw [hdiv, ← h4]
    push_cast
    ring
  · right
    rw [h1] at h2
    have h2 : q.snapshots = k := by
      have := Except.ok.inj h2
      omega
    refine ⟨h2, ?_⟩
    have h4 : q.fields + k = q.velocity.length + 1 := by
      unfold Experiment.fields
      omega
    rw [hdiv]
    have : (q.fields : ℚ) + k = q.velocity.length + 1 := by exact_mod_cast h4
    linarith

/-- **C117** (the example of README.md:264-271).  100 velocity files, `snapshot_timestep = 0.01`,
`flow_map_period = 0.1`: 90 fields, as documented, but each of them takes 11 snapshots, not 10. -/
theorem C117_readme {l : List (Opt × Str)} {q : Experiment K}
    (hq : Asks cd float texts (fun T h => snapshotsPerPeriod (val T) (val h)) l q)
    {vT vh : Str} {T h : K} (hT : LastValue l .flowMapPeriod vT)
    (hh : LastValue l .snapshotTimestep vh) (fT : float vT = some T) (fh : float vh = some h)
    (rT : val T = rne (1 / 10)) (rh : val h = rne (1 / 100)) (hN : q.velocity.length = 100) :
    q.snapshots = 11 ∧ q.fields = 90 := by
  have h1 := hq.snapshots_eq cd float texts val hT hh fT fh
  rw [rT, rh, show snapshotsPerPeriod (rne (1 / 10)) (rne (1 / 100)) = .ok 11 by decide +kernel] at h1
  have h2 : q.snapshots = 11 := by
    have := Except.ok.inj h1
    omega
  exact ⟨h2, by unfold Experiment.fields; omega⟩

/-- The text files of a call with `N` velocity files. -/
def countTexts (N : ℕ) (p : Str) : Option Str :=
  if p = ['V'] then some (writeList (List.replicate N ['v']))
  else if p = ['C'] then some "c\n".toList
  else if p = ['P'] then some "p\n".toList
  else none

theorem text_001 : float64 asciiData "0.01".toList = some ⟨rne (1 / 100)⟩ := by decide +kernel
theorem text_01 : float64 asciiData "0.1".toList = some ⟨rne (1 / 10)⟩ := by decide +kernel
theorem text_03 : float64 asciiData "0.3".toList = some ⟨rne (3 / 10)⟩ := by decide +kernel
theorem text_05 : float64 asciiData "0.5".toList = some ⟨1 / 2⟩ := by decide +kernel
theorem text_15 : float64 asciiData "1.5".toList = some ⟨3 / 2⟩ := by decide +kernel

/-- The options of a call. -/
def countOptions (T h : Str) : List (Opt × Str) :=
  [(.experimentName, "run".toList), (.listVelocityFiles, ['V']), (.listCoordinateFiles, ['C']),
    (.listParticleFiles, ['P']), (.snapshotTimestep, h), (.flowMapPeriod, T),
    (.integrator, "rk4".toList), (.interpolator, "linear".toList), (.outputFormat, "mat".toList)]

/-- What it asks for. -/
def countExperiment (N : ℕ) (h : Fl) (n : ℕ) : Experiment Fl where
  name := "run".toList
  velocity := List.replicate N ['v']
  coordinate := [['c']]
  particle := [['p']]
  timestep := h
  snapshots := n
  integrator := "rk4"
  interpolator := "linear"
  format := "mat"
  processes := 1
  flowGrid := none
  particlesGrid := none

theorem countAsks (N : ℕ) {vT vh : Str} {T h : Fl} {n : ℕ} (fT : float64 asciiData vT = some T)
    (fh : float64 asciiData vh = some h) (hn : snapshotsPerPeriod T.val h.val = .ok n) :
    Asks asciiData (float64 asciiData) (countTexts N) (fun T h => snapshotsPerPeriod T.val h.val)
      (countOptions vT vh) (countExperiment N h n) := by
  have last : ∀ (a b : List (Opt × Str)) (o : Opt) (v : Str), (∀ e ∈ b, e.1 ≠ o) →
      LastValue (a ++ (o, v) :: b) o v := fun a b o v h => ⟨a, b, rfl, fun w hw => h _ hw rfl⟩
  refine ⟨?_, last [] _ _ _ (by simp),
    ⟨['V'], last ((countOptions vT vh).take 1) _ _ _ (by simp), rfl⟩,
    ⟨['C'], last ((countOptions vT vh).take 2) _ _ _ (by simp), rfl⟩,
    ⟨['P'], last ((countOptions vT vh).take 3) _ _ _ (by simp), rfl⟩,
    ⟨vh, last ((countOptions vT vh).take 4) _ _ _ (by simp), fh⟩,
    ⟨vT, T, last ((countOptions vT vh).take 5) _ _ _ (by simp), fT, hn⟩,
    last ((countOptions vT vh).take 6) _ _ _ (by simp),
    last ((countOptions vT vh).take 7) _ _ _ (by simp),
    last ((countOptions vT vh).take 8) _ _ _ (by simp), .inr ⟨by simp [countOptions], rfl⟩,
    .inr ⟨by simp [countOptions], rfl⟩, .inr ⟨by simp [countOptions], rfl⟩⟩
  intro e he
  simp only [countOptions, List.mem_cons, List.not_mem_nil, or_false] at he
  rcases he with rfl | rfl | rfl | rfl | rfl | rfl | rfl | rfl | rfl
  · exact ⟨_, rfl⟩
  · exact ⟨_, rfl⟩
  · exact ⟨_, rfl⟩
  · exact ⟨_, rfl⟩
  · exact ⟨h, fh⟩
  · exact ⟨T, fT⟩
  · exact ⟨"rk4".toList, rfl, .inl rfl⟩
  · exact ⟨"linear".toList, rfl, .inr (.inl rfl)⟩
  · exact ⟨"mat".toList, rfl, .inl rfl⟩

theorem countLast (vT vh : Str) : LastValue (countOptions vT vh) .flowMapPeriod vT ∧
    LastValue (countOptions vT vh) .snapshotTimestep vh :=
  ⟨⟨(countOptions vT vh).take 5, _, rfl, by simp⟩, ⟨(countOptions vT vh).take 4, _, rfl, by simp⟩⟩

theorem countSensible {N n : ℕ} (h : Fl) (h1 : 1 ≤ n) (hN : n ≤ N) :
    (countExperiment N h n).Sensible where
  plain := by
    intro f hf
    refine callSensible.plain f ?_
    simp only [countExperiment, List.mem_append, List.mem_replicate, List.mem_singleton] at hf
    simp only [callExperiment, List.mem_append, List.mem_cons, List.not_mem_nil, or_false]
    tauto
  coordinate_ne := by simp [countExperiment]
  particle_ne := by simp [countExperiment]
  one_le := h1
  enough := by simpa [countExperiment] using hN
  shape := by simp [countExperiment]
  processes := by simp [countExperiment]

/-- **C117** (decimal numbers).  With `--flow_map_period 0.3 --snapshot_timestep 0.1` and any number
`N ≥ 3` of velocity files there are `N - 2` fields, where the documentation promises `N - 3`. -/
theorem C117_decimal_fails (N : ℕ) (hN : 3 ≤ N) : ∃ q : Experiment Fl,
    Asks asciiData (float64 asciiData) (countTexts N) (fun T h => snapshotsPerPeriod T.val h.val)
      (countOptions "0.3".toList "0.1".toList) q ∧ q.Sensible ∧ q.velocity.length = N ∧
    q.snapshots = 3 ∧ (q.fields : ℚ) = N - (3 / 10 : ℚ) / |(1 / 10 : ℚ)| + 1 := by
  refine ⟨_, countAsks N (T := ⟨rne (3 / 10)⟩) (h := ⟨rne (1 / 10)⟩) (n := 3) text_03 text_01
    C47_decimal_fails, countSensible _ (by norm_num) hN, by simp [countExperiment], rfl, ?_⟩
  have : (countExperiment N ⟨rne (1 / 10)⟩ 3).fields + 2 = N := by
    simp only [Experiment.fields, countExperiment, List.length_replicate]
    omega
  have h : (((countExperiment N ⟨rne (1 / 10)⟩ 3).fields : ℕ) : ℚ) + 2 = N := by exact_mod_cast this
  rw [abs_of_pos (by norm_num)]
  linarith

/-- The hypotheses of `C117_readme` and of `C117_decimal_partial` are satisfiable. -/
example : (countExperiment 100 ⟨rne (1 / 100)⟩ 11).snapshots = 11 ∧
    (countExperiment 100 ⟨rne (1 / 100)⟩ 11).fields = 90 :=
  C117_readme asciiData (float64 asciiData) (countTexts 100) Fl.val
    (countAsks 100 text_01 text_001 (n := 11) (by decide +kernel)) (countLast _ _).1 (countLast _ _).2
    text_01 text_001 rfl rfl (by simp [countExperiment])

example := C117_decimal_partial asciiData (float64 asciiData) (countTexts 100) Fl.val
  (countAsks 100 text_01 text_001 (n := 11) (by decide +kernel)) (countSensible _ (by norm_num)
    (by norm_num)) (countLast _ _).1 (countLast _ _).2 text_01 text_001 (xT := 1 / 10) (xh := 1 / 100)
  rfl rfl (le_trans (zpow_le_zpow_right₀ (by norm_num) (by norm_num : (-1022 : ℤ) ≤ -7))
    (by rw [abs_of_pos (by norm_num)]; norm_num)) 10 (by norm_num) (by norm_num)
  (by rw [abs_of_pos (by norm_num)]; norm_num)

/-- The hypotheses of `C117_exact_partial` are satisfiable. -/
example : (countExperiment 7 ⟨1 / 2⟩ 4).snapshots = 4 :=
  (C117_exact_partial asciiData (float64 asciiData) (countTexts 7) Fl.val
    (countAsks 7 text_15 text_05 (n := 4) (by decide +kernel)) (countSensible _ (by norm_num)
    (by norm_num)) (countLast _ _).1 (countLast _ _).2 text_15 text_05
    ⟨3, -1, by norm_num, by norm_num, by norm_num, by norm_num⟩
    ⟨1, -1, by norm_num, by norm_num, by norm_num, by norm_num⟩ (by norm_num) 3 (by norm_num)
    (by rw [abs_of_pos (by norm_num)]; norm_num)
    (lt_of_lt_of_le (by norm_num : 3 < 2 ^ 2) (Nat.pow_le_pow_right (by norm_num) (by norm_num)))).1

/-- The hypotheses of `C117_files` are satisfiable: the call of `Props/Command.lean`, which asks for
two fields, leaves two files. -/
example : ∃ (st : Started ℚ ℚ) (rs : _),
    {n | ∃ c, ((startCommand asciiData callFloat cfgJson callTexts snapshotsPerPeriod id callDisk
      callArgv : _ × _ × Except Stop (Started ℚ ℚ)).1.writeFiles st.folder
        (st.files id rs [1, 0])).1.node ([tmpName, "outputs".toList, "run".toList] ++ [n]) =
      some (.file c)}.ncard = 2 := by
  obtain ⟨st, H, s₀, bs, s, rs, h1, h2, h4, h5, h6⟩ := callRuns
  have := C117_files (F := ℚ) asciiData callFloat cfgJson callTexts
    snapshotsPerPeriod id asciiData_lawful (by simp) callSays callFromFile callAsks callSensible
    (by decide) callDisk exProgEnv (by decide +kernel) (by decide +kernel) callTakes (by
      rw [callTarget]
      intro n c hc
      have : callDisk.node ([tmpName, "outputs".toList, "run".toList] ++ [n]) = none := rfl
      rw [this] at hc
      cases hc) h1 h2 (fun _ _ => 7) h4 h5 h6 [1, 0] (by decide) id
  rw [callTarget] at this
  exact ⟨st, rs, this⟩

end Verif
