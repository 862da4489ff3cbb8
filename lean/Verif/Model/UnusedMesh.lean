import Verif.Model.Mesh

/-!
Model: methods of `mesh_class` (mesh.py) that nothing calls, and `wavespeed_estimator.py`, whose call is commented
out (main_functions.py 198-202).  `print` statements are left out.
-/

namespace Verif.Model

/-- mesh.py 269-272 `smooth_wave_loc_array`: the first `k` turns of the loop. -/
noncomputable def smoothLoop (a : ℕ → ℝ) : ℕ → ℕ → ℝ
  | 0 => a
  | k + 1 => open Classical in
    if smoothLoop a k k < smoothLoop a k (k + 1) then Function.update (smoothLoop a k) k (smoothLoop a k (k + 1))
    else smoothLoop a k

/-- mesh.py 269-272, an array of `n` positions -/
noncomputable def smoothWave (n : ℕ) (a : ℕ → ℝ) : ℕ → ℝ := smoothLoop a (n - 1)

/-- `wave_loc_array[0]`: `n` times with the positions of the right front and the temperature front. -/
structure WaveTable where
  n : ℕ
  times : ℕ → ℝ
  right : ℕ → ℝ
  temp : ℕ → ℝ

open Classical in
/-- `np.searchsorted(times, t)` for times in order -/
noncomputable def WaveTable.index (w : WaveTable) (t : ℝ) : ℕ := ((Finset.range w.n).filter (w.times · < t)).card

/-- The attributes that `recalculate_wavespeed` changes. -/
structure SpeedState where
  indexOld : ℕ
  right : ℝ
  temp : ℝ
  leader : ℝ
  packetLeader : ℝ
  follower : ℝ
  span : ℝ

/-- mesh.py 128-139: all zero at first. -/
def SpeedState.init : SpeedState := ⟨0, 0, 0, 0, 0, 0, 0⟩

/-- `edges[-int(sidebin-2)]` of `N + 1` edges -/
def spanEdge (N : ℕ) (edges : ℕ → ℝ) : ℝ :=
  if 2 < N / 4 then edges (N + 1 - (N / 4 - 2)) else edges (2 - N / 4)

/-- mesh.py 356-374, the speeds for another interval of times -/
noncomputable def newSpeeds (c : MeshConfig) (w : WaveTable) (edges Dconst : ℕ → ℝ) (t : ℝ) : SpeedState :=
  let i := w.index t
  let dt := w.times (i + 1) - t
  let follower := (w.temp (i + 1) - c.pad - edges (c.N - 2)) / dt
  let last := edges (c.N - 2) + Dconst (c.N - 2) * follower * dt
  let dx := (last - c.x0) / (((c.N / 4 : ℕ) : ℝ) / 2)
  { indexOld := i
    right := (w.right (i + 1) - edges c.N) / dt
    temp := (w.temp (i + 1) - edges (c.N - 1)) / dt
    leader := (w.temp (i + 1) + c.leaderPad - edges c.N) / dt
    packetLeader := (w.temp (i + 1) + c.pad - edges (c.N - 1)) / dt
    follower := follower
    span := (last - dx - spanEdge c.N edges) / dt }

/-- mesh.py 399-409: no speed is negative; 359's `packet_leader_speed` is left as it is. -/
noncomputable def SpeedState.clamp (s : SpeedState) : SpeedState :=
  { s with right := max 0 s.right, temp := max 0 s.temp, leader := max 0 s.leader, follower := max 0 s.follower,
           span := max 0 s.span }

/-- mesh.py 343-412 `recalculate_wavespeed`; `none` where the table is read outside of its times. -/
noncomputable def recalculateWavespeed (c : MeshConfig) (w : WaveTable) (edges Dconst : ℕ → ℝ) (t : ℝ)
    (s : SpeedState) : Option SpeedState :=
  if w.n ≤ w.index t + 1 then none
  else if w.index t ≠ s.indexOld then some (newSpeeds c w edges Dconst t).clamp
  else some s.clamp

/-- mesh.py 624-631, the edges of `simple_thick_square_init_func_2` -/
noncomputable def simpleThick2Edges (c : MeshConfig) : Arr :=
  ((linspace (-c.x0 - 1 / 10 ^ 14) (-c.x0) (c.N / 2 / 2 + 1)).dropLast.append
    (linspace (-c.x0) c.x0 (c.N / 2 + 1)).dropLast).append (linspace c.x0 (c.x0 + 1 / 10 ^ 14) (c.N / 2 / 2 + 1))

/-- mesh.py 620-636 `simple_thick_square_init_func_2`: edges and velocities, all of them multiplied by zero in
line 636. -/
noncomputable def simpleThick2 (c : MeshConfig) : Option ((ℕ → ℝ) × (ℕ → ℝ)) :=
  if c.N = 2 then none
  else if (simpleThick2Edges c).size ≠ c.N + 1 then none
  else some ((simpleThick2Edges c).get, fun _ => 0)

/-- mesh.py 677-754 `thick_square_init_func`: edges and velocities.  Lines 741-742 call `self.set_func`, which the
class does not have. -/
noncomputable def oldThickSquareInit (c : MeshConfig) (speed : ℝ) : Option ((ℕ → ℝ) × (ℕ → ℝ)) :=
  let half := c.N / 2
  if half - 1 = 1 then
    some (fun i => if i = 1 then -c.x0 else if i = 1 + half then c.x0 else 0,
      fun i => if i = 1 then -1 * speed else if i = 1 + half then 1 * speed else 0)
  else none

/-- wavespeed_estimator.py 55-65 for one time: `old` and `new` are the fluxes at `n` points before and after the
step.  Index `-1` is the last point. -/
noncomputable def wavespeed (n : ℕ) (old new : ℕ → ℝ) (deltaT deltaX : ℝ) : ℝ :=
  (∑ i ∈ Finset.range (n - 1), |(new i - old i) / deltaT|) /
    (0.5 * ∑ i ∈ Finset.range (n - 1), |(new (i + 1) - new (if i = 0 then n - 1 else i - 1)) / deltaX|)

/-- wavespeed_estimator.py 70-74 `derivative_estimator` -/
noncomputable def derivativeEstimator (n : ℕ) (phi : ℕ → ℝ) (deltaX : ℝ) (i : ℕ) : ℝ :=
  if 1 ≤ i ∧ i < n - 1 then (phi i - phi (i - 1)) / deltaX else 0

/-- wavespeed_estimator.py 76-80 `second_derivative_estimator` -/
noncomputable def secondDerivativeEstimator (n : ℕ) (phi : ℕ → ℝ) (deltaX : ℝ) (i : ℕ) : ℝ :=
  if 1 ≤ i ∧ i < n - 2 then (phi (i + 1) - 2 * phi i + phi (i - 1)) / deltaX ^ 2 else 0

end Verif.Model
