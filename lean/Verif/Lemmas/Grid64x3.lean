import Verif.Lemmas.Grid64

/-!
# The 3-D grid interpolator in binary64

As `Lemmas/Grid64.lean`: objects built from a coordinate listing, the trilinear kernel.
-/

namespace Verif

open Matrix Set

/-! ## The objects, for any scalars -/

section objects
variable {K : Type}

/-- Objects built in 3-D from the axes of the coordinate rows. -/
theorem build_axes_3d [Sub K] [Div K] [NatCast K] [Min K] [Max K] {nx ny nz : ℕ} {v p : NDArray K}
    {ax ay az : Axis K} (hp : p.shape = [3, nx * ny * nz]) (hv : v.shape = [3, nx * ny * nz])
    (hx : ∀ a : NDArray K, a.toList = ((List.range (nx * ny * nz)).map fun q => p.get [0, q]) →
      axisOf a nx = .ok ax)
    (hy : ∀ a : NDArray K, a.toList = ((List.range (nx * ny * nz)).map fun q => p.get [1, q]) →
      axisOf a ny = .ok ay)
    (hz : ∀ a : NDArray K, a.toList = ((List.range (nx * ny * nz)).map fun q => p.get [2, q]) →
      axisOf a nz = .ok az) :
    ∃ it : Fin 3 → Interp K, HighPerf.build [nx, ny, nz] v p = .ok (it 0, it 1, some (it 2)) ∧
      ∀ c : Fin 3, (it c).axes = [ax, ay, az] ∧ (it c).v.shape = [ny, nx, nz] ∧
        ∀ i j k, i < ny → j < nx → k < nz →
          (it c).v.get [i, j, k] = v.get [c.1, (j * ny + i) * nz + k] := by
  have hprod : [nx, ny, nz].prod = nx * ny * nz := by simp; ring
  have hr : ∃ co, p.reshapeC [3, nx, ny, nz] = .ok co := by
    unfold NDArray.reshapeC
    rw [if_pos (by rw [hp]; simp; ring)]
    exact ⟨_, rfl⟩
  obtain ⟨co, hco⟩ := hr
  have hw : ∃ w, v.reshapeC [3, nx, ny, nz] = .ok w ∧ w.shape = [3, nx, ny, nz] ∧
      ∀ idx, w.get idx = v.get (decC v.shape (encC [3, nx, ny, nz] idx)) := by
    unfold NDArray.reshapeC
    rw [if_pos (by rw [hv]; simp; ring)]
    exact ⟨_, rfl, rfl, fun _ => rfl⟩
  obtain ⟨w, hw, hws, hwg⟩ := hw
  have l0 := coords_row_toList (gs := [nx, ny, nz]) (d := 3) (c := 0) (by rw [hp, hprod]) hco
    (by omega)
  have l1 := coords_row_toList (gs := [nx, ny, nz]) (d := 3) (c := 1) (by rw [hp, hprod]) hco
    (by omega)
  have l2 := coords_row_toList (gs := [nx, ny, nz]) (d := 3) (c := 2) (by rw [hp, hprod]) hco
    (by omega)
  rw [hprod] at l0 l1 l2
  have e0 := hx _ l0
  have e1 := hy _ l1
  have e2 := hz _ l2
  have hsh : ∀ c, ((w.transpose [0, 2, 1, 3]).row c).shape = [ny, nx, nz] := by
    intro c; simp [NDArray.row, NDArray.transpose, hws]
  have hget : ∀ c i j k, ((w.transpose [0, 2, 1, 3]).row c).get [i, j, k] = w.get [c, j, i, k] := by
    intro c i j k
    simp only [NDArray.row, NDArray.transpose, hws]
    rfl
  refine ⟨fun c => ⟨(w.transpose [0, 2, 1, 3]).row c.1, [ax, ay, az]⟩, ?_, fun c =>
    ⟨rfl, hsh c.1, ?_⟩⟩
  · unfold HighPerf.build
    simp only [List.length_cons, List.length_nil]
    rw [show (0 + 1 + 1 + 1 : ℕ) = 3 from rfl, hco]
    simp only [hw, e0, e1, e2]
    rfl
  · intro i j k hi hj hk
    rw [hget, hwg]
    exact reshapeC_3d hv c.2 hj hi hk

/-- `interpolate` in 3-D when the three objects deliver values. -/
theorem highPerf_calls_3d [Zero K] [One K] [Add K] [Sub K] [Mul K] [Div K] [DecidableEq K]
    {m : CMachine K} (junk : List ℕ → K) {s : HighPerf K} {it : Fin 3 → Interp K}
    (hix : s.ix = some (it 0)) (hiy : s.iy = some (it 1)) (hiz : s.iz = some (it 2))
    {q : NDArray K} {n : ℕ} (hq : q.shape = [n, 3]) (hb : s.uLen = some n → s.wLen = some n)
    {u : Fin 3 → ℕ → K}
    (call : ∀ c, (it c).call m n 3 (fun r c => q.get [r, c]) (some n) =
      .ok ((List.range n).map (u c))) :
    ∃ out, (s.interpolate m junk q).2 = .ok out ∧ out.shape = [n, 3] ∧
      ∀ r < n, ∀ c : Fin 3, out.get [r, c.1] = u c r := by
  have hu : (s.ensureBuffers n 3).uLen = some n := by
    unfold HighPerf.ensureBuffers; split
    · assumption
    · simp
  have hw : (s.ensureBuffers n 3).wLen = some n := by
    unfold HighPerf.ensureBuffers; split
    · rename_i h; exact hb h
    · simp
  have hx' : (s.ensureBuffers n 3).ix = some (it 0) := by
    unfold HighPerf.ensureBuffers; split <;> simp [hix]
  have hy' : (s.ensureBuffers n 3).iy = some (it 1) := by
    unfold HighPerf.ensureBuffers; split <;> simp [hiy]
  have hz' : (s.ensureBuffers n 3).iz = some (it 2) := by
    unfold HighPerf.ensureBuffers; split <;> simp [hiz]
  unfold HighPerf.interpolate
  rw [hq]
  simp only [if_true, (by decide : ¬ (3 : ℕ) = 2), if_false, hu, hw, hx', hy', hz']
  rw [call 0]
  simp only
  rw [call 1]
  simp only
  rw [call 2]
  have col : ∀ (w : ℕ → K) (a : K) (r : ℕ), r < n → listCol ((List.range n).map w) a r = w r := by
    intro w a r hr
    simp [listCol, hr]
  refine ⟨_, rfl, hq, fun r hr c => ?_⟩
  fin_cases c
  · exact col (u 0) _ r hr
  · exact col (u 1) _ r hr
  · exact col (u 2) _ r hr

/-- One object called in 3-D. -/
theorem interp_call_3d [Zero K] [One K] [Add K] [Sub K] [Mul K] [Div K] [DecidableEq K]
    {m : CMachine K} {it : Interp K} {ax ay az : Axis K} {X Y Z n : ℕ} (ha : it.axes = [ax, ay, az])
    (hs : it.v.shape = [X, Y, Z]) {t : ℕ → ℕ → K} {u : ℕ → K}
    (h : ∀ r < n, interp3dAt m it.v X Y Z (ax.index (t r 0)) (ay.index (t r 1)) (az.index (t r 2)) =
      .ok (u r)) :
    it.call m n 3 t (some n) = .ok ((List.range n).map u) := by
  unfold Interp.call
  rw [ha]
  simp only [List.length_cons, List.length_nil, List.zipIdx_cons, List.zipIdx_nil,
    List.map_cons, List.map_nil]
  rw [if_neg (by omega)]
  unfold interp3dVec
  rw [hs]
  simp only [ne_eq, not_true_eq_false, List.length_map, List.length_range, if_false]
  rw [pyMap_map, pyMap_ok (g := u)]
  intro r hr
  exact h r (List.mem_range.1 hr)

end objects

/-! ## The kernel -/

/-- A rounded linear interpolation between values within `D` of `w`. -/
theorem lerp64 {a b t : Fl} {w D s : ℝ} (hs0 : 0 ≤ s) (hs1 : s ≤ 1) (ht : |t.re - s| ≤ uR + ηR)
    (ha : |a.re - w| ≤ D) (hb : |b.re - w| ≤ D) :
    |(a * (1 - t) + b * t).re - w| ≤ D + 10 * (uR * (|w| + D)) + 4 * ηR := by
  set V := |w| + D with hVd
  have hD : 0 ≤ D := (abs_nonneg _).trans ha
  have hV0 : 0 ≤ V := by positivity
  have bound : ∀ {v : Fl}, |v.re - w| ≤ D → |v.re| ≤ V := by
    intro v h
    have := abs_sub_abs_le_abs_sub v.re w
    linarith
  have hη := eta_le_u
  have hη0 := ηR_pos
  have hu0 := uR_pos
  have huV : 0 ≤ uR * V := mul_nonneg uR_pos.le hV0
  have hu1 : uR ≤ 1 / 10 ^ 4 := uR_le.trans (by norm_num)
  have one : (1 : Fl).re = 1 := by show ((1 : ℚ) : ℝ) = 1; norm_num
  have co : |(1 - t).re - (1 - s)| ≤ 3 * uR := by
    have h1 := Fl.re_sub 1 t
    rw [one] at h1
    have h2 : |1 - t.re - (1 - s)| ≤ uR + ηR := by
      rw [show 1 - t.re - (1 - s) = -(t.re - s) by ring, abs_neg]; exact ht
    have h3 := round_near h1 h2 (show |1 - s| ≤ 1 by rw [abs_of_nonneg (by linarith)]; linarith)
    have h4 : uR * (uR + ηR) ≤ 1 / 100 * uR := by
      have := mul_le_mul_of_nonneg_left (show uR + ηR ≤ 1 / 100 by linarith [uR_le]) uR_pos.le
      linarith
    linarith
  have ht' : |t.re - s| ≤ 3 * uR := by linarith
  have term : ∀ {v p : Fl} {p' : ℝ}, |v.re| ≤ V → 0 ≤ p' → p' ≤ 1 → |p.re - p'| ≤ 3 * uR →
      |(v * p).re - v.re * p'| ≤ 401 / 100 * (uR * V) + ηR := by
    intro v p p' hv hp0 hp1 hp
    have m1 : |v.re * p.re - v.re * p'| ≤ 3 * (uR * V) := by
      rw [← mul_sub, abs_mul]
      have := mul_le_mul hv hp (abs_nonneg _) hV0
      linarith
    have vs : |v.re * p'| ≤ V := by
      rw [abs_mul, abs_of_nonneg hp0]
      calc |v.re| * p' ≤ V * 1 := mul_le_mul hv hp1 hp0 hV0
        _ = V := mul_one V
    have r1 := round_near (Fl.re_mul v p) m1 vs
    have small : uR * (3 * (uR * V)) ≤ 1 / 100 * (uR * V) := by
      have := mul_le_mul_of_nonneg_right hu1 (by linarith : 0 ≤ 3 * (uR * V))
      linarith
    linarith
  have t1 := term (bound ha) (by linarith) (by linarith) co
  have t2 := term (bound hb) hs0 hs1 ht'
  have p1 : |a.re * (1 - s)| ≤ V * (1 - s) := by
    rw [abs_mul, abs_of_nonneg (by linarith : 0 ≤ 1 - s)]
    exact mul_le_mul_of_nonneg_right (bound ha) (by linarith)
  have p2 : |b.re * s| ≤ V * s := by
    rw [abs_mul, abs_of_nonneg hs0]
    exact mul_le_mul_of_nonneg_right (bound hb) hs0
  have n1 := abs_add_le (a.re * (1 - s)) (b.re * s)
  have s1 := sum64 t1 t2 (V := V) (by linarith) (by
    have := mul_le_mul_of_nonneg_right hu1
      (by linarith : 0 ≤ 401 / 100 * (uR * V) + ηR + (401 / 100 * (uR * V) + ηR))
    linarith)
  have e : |a.re * (1 - s) + b.re * s - w| ≤ D := by
    rw [show a.re * (1 - s) + b.re * s - w = (a.re - w) * (1 - s) + (b.re - w) * s by ring]
    have d1 : |(a.re - w) * (1 - s)| ≤ D * (1 - s) := by
      rw [abs_mul, abs_of_nonneg (by linarith : 0 ≤ 1 - s)]
      exact mul_le_mul_of_nonneg_right ha (by linarith)
    have d2 : |(b.re - w) * s| ≤ D * s := by
      rw [abs_mul, abs_of_nonneg hs0]
      exact mul_le_mul_of_nonneg_right hb hs0
    linarith [abs_add_le ((a.re - w) * (1 - s)) ((b.re - w) * s)]
  have fin := abs_sub_le (a * (1 - t) + b * t).re (a.re * (1 - s) + b.re * s) w
  linarith

/-- The trilinear kernel: values within `D` of `w`. -/
theorem trilin64 {f : ℕ → ℕ → ℕ → Fl} {xd yd zd : Fl} {w D a b c : ℝ} (ha0 : 0 ≤ a) (ha1 : a ≤ 1)
    (hb0 : 0 ≤ b) (hb1 : b ≤ 1) (hc0 : 0 ≤ c) (hc1 : c ≤ 1) (hx : |xd.re - a| ≤ uR + ηR)
    (hy : |yd.re - b| ≤ uR + ηR) (hz : |zd.re - c| ≤ uR + ηR)
    (h : ∀ i ≤ 1, ∀ j ≤ 1, ∀ k ≤ 1, |(f i j k).re - w| ≤ D) :
    |(trilin f xd yd zd).re - w| ≤ D + 64 * (uR * (|w| + D)) + 64 * ηR := by
  have hD : 0 ≤ D := (abs_nonneg _).trans (h 0 (by omega) 0 (by omega) 0 (by omega))
  have hu0 := uR_pos
  have hη0 := ηR_pos
  have hu1 : uR ≤ 1 / 10 ^ 4 := uR_le.trans (by norm_num)
  set D1 := D + 10 * (uR * (|w| + D)) + 4 * ηR with hD1
  set D2 := D1 + 10 * (uR * (|w| + D1)) + 4 * ηR with hD2
  have lx : ∀ j ≤ 1, ∀ k ≤ 1, |(f 0 j k * (1 - xd) + f 1 j k * xd).re - w| ≤ D1 := fun j hj k hk =>
    lerp64 ha0 ha1 hx (h 0 (by omega) j hj k hk) (h 1 le_rfl j hj k hk)
  have ly : ∀ k ≤ 1, |((f 0 0 k * (1 - xd) + f 1 0 k * xd) * (1 - yd) +
      (f 0 1 k * (1 - xd) + f 1 1 k * xd) * yd).re - w| ≤ D2 := fun k hk =>
    lerp64 hb0 hb1 hy (lx 0 (by omega) k hk) (lx 1 le_rfl k hk)
  have lz := lerp64 hc0 hc1 hz (ly 0 (by omega)) (ly 1 le_rfl)
  refine (show _ ≤ _ from lz).trans ?_
  set V := |w| + D with hV
  have hV0 : 0 ≤ V := by positivity
  have huV : 0 ≤ uR * V := by positivity
  have s1 : uR * (uR * V) ≤ 1 / 10 ^ 4 * (uR * V) := mul_le_mul_of_nonneg_right hu1 huV
  have s2 : uR * ηR ≤ 1 / 10 ^ 4 * ηR := mul_le_mul_of_nonneg_right hu1 hη0.le
  have e1 : |w| + D1 = V + 10 * (uR * V) + 4 * ηR := by rw [hD1]; ring
  have b1 : uR * (|w| + D1) ≤ 11 / 10 * (uR * V) + ηR := by rw [e1]; linarith
  have b2 : D2 ≤ D + 21 * (uR * V) + 18 * ηR := by rw [hD2, hD1]; linarith
  have b3 : uR * (|w| + D2) ≤ 2 * (uR * V) + ηR := by
    have : uR * (|w| + D2) ≤ uR * (V + 21 * (uR * V) + 18 * ηR) :=
      mul_le_mul_of_nonneg_left (by linarith) hu0.le
    linarith
  linarith

end Verif
