import Verif.EclipseLimits
/-!
# The greatest eclipse at sunrise or sunset — /repo/eph/eph_rsgs.cpp:290-295, 329-353 (`RS_GS::push`, `RS_GS::mDian`)

Exact arithmetic on `ℝ` as in `Verif/EclipseLimits.lean`.  The member `RS_GS::bba` is a parameter.
-/

namespace Verif.Geom

open Real

/-- one round of the loop: the point and its distance, or nothing — eph_rsgs.cpp:337-342 -/
noncomputable def limbRound (bba : ℝ) (M : V3) (vx0 vy0 : ℝ) (ab : Bool) (s x y : ℝ) : Option (ℝ × ℝ × ℝ) :=
  let c := vxy x y s vx0 vy0
  let p := lineOvl M.x M.y c.Vy (-c.Vx) 1 bba
  if p.n = 0 then none
  else if ab then some (p.ax, p.ay, p.R1)
  else some (p.bx, p.byy, p.R2)

open Classical in
/-- `RS_GS::mDian(M, vx0, vy0, AB, r, I, A)`: the result and the vector `A` afterwards — eph_rsgs.cpp:329-353, `push` 292-296 -/
noncomputable def mDian (bba : ℝ) (M : V3) (vx0 vy0 : ℝ) (ab : Bool) (r : ℝ) (I : V3) (A : List ℝ) : Bool × List ℝ :=
  match limbRound bba M vx0 vy0 ab I.y M.x M.y with
  | none => (false, A)
  | some (x, y, _) =>
    match limbRound bba M vx0 vy0 ab I.y x y with
    | none => (false, A)
    | some (x, y, R) =>
      if R ≤ r then
        let a := bse2db ⟨x, y, 0⟩ I true
        (true, A ++ [a.1] ++ [a.2])
      else (false, A)

end Verif.Geom
