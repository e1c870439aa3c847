import Verif.Props.EclipseLimits
import Mathlib.Topology.Order.IntermediateValue
import Mathlib.Topology.Algebra.Order.Field

/-!
# C83 the table of limits, first and last contact of the axis and of the penumbra with the Earth
-/

namespace Verif.Geom

open Real Verif.Precession

/-! ## The table -/

open Classical in
/-- what the minute `t` contributes to the table: a line when at least one of the five places exists, nothing otherwise -/
noncomputable def rowOf (date ang : ℝ → List Char) (t : ℝ) (ps : List (ℝ × ℝ)) : List Char :=
  if ∃ p ∈ ps, p.2 ≠ 100 then limitText date ang t ps ++ ['\n'] else []

theorem jieLoop_eq (row : ℝ → List (ℝ × ℝ)) (date ang : ℝ → List Char) : ∀ (n : ℕ) (t : ℝ) (s : List Char),
    jieLoop row date ang n t s = s ++ (List.range n).flatMap (fun (i : ℕ) => rowOf date ang (t + (i : ℝ) / 1440) (row (t + (i : ℝ) / 1440))) := by
  intro n
  induction n with
  | zero => intro t s; simp [jieLoop]
  | succ n ih =>
    intro t s
    unfold jieLoop
    simp only []
    rw [ih, List.range_succ_eq_map, List.flatMap_cons, List.flatMap_map]
    have hk : ((row t).filter (fun p => p.2 ≠ 100)).length ≠ 0 ↔ ∃ p ∈ row t, p.2 ≠ 100 := by
      rw [ne_eq, List.length_eq_zero_iff, List.filter_eq_nil_iff]
      push Not
      simp
    have e0 : t + ((0 : ℕ) : ℝ) / 1440 = t := by simp
    have ei : ∀ i : ℕ, t + 1 / 1440 + (i : ℝ) / 1440 = t + ((i + 1 : ℕ) : ℝ) / 1440 := by intro i; push_cast; ring
    rw [e0]
    simp only [ei, Nat.succ_eq_add_one]
    unfold rowOf
    by_cases h : ∃ p ∈ row t, p.2 ≠ 100
    · rw [if_pos (hk.2 h), if_pos h, List.append_assoc, List.append_assoc, List.append_assoc]
    · rw [if_neg (fun h' => h (hk.1 h')), if_neg h, List.nil_append]

/-- **C83 (table).**  The table is the heading followed by the lines of the 360 whole minutes from three hours before the instant of greatest eclipse (truncated to the minute), in order of time; a
minute has a line exactly when at least one of its five places exists, and the line shows the date, then the five places from north to south. -/
theorem c83_table (s : RsState) (bseM bse : ℝ → V3) (date ang : ℝ → List Char) (jd : ℝ) (re : Feature) (hre : re = feature s bseM bse jd) :
    jieX3 s bseM bse date ang jd = jieHead ++ (List.range 360).flatMap (fun (i : ℕ) =>
        rowOf date ang ((⌊re.jd * 1440⌋ - 180 + (i : ℝ)) / 1440) (limitRow s bseM bse re (featureAcc s bseM) ((⌊re.jd * 1440⌋ - 180 + (i : ℝ)) / 1440)))
    ∧ ∀ i : ℕ, i < 360 → ∀ t : ℝ, t = (⌊re.jd * 1440⌋ - 180 + (i : ℝ)) / 1440 → re.jd - 181 / 1440 ≤ t ∧ t < re.jd + 180 / 1440 ∧ ∃ m : ℤ, t * 1440 = m := by
  constructor
  · unfold jieX3
    simp only [← hre]
    rw [jieLoop_eq, List.nil_append]
    have : ∀ i : ℕ, (⌊re.jd * 1440⌋ : ℝ) / 1440 - 3 / 24 + (i : ℝ) / 1440 = (⌊re.jd * 1440⌋ - 180 + (i : ℝ)) / 1440 := by intro i; ring
    simp only [this]
  · intro i hi t ht
    have h1 := Int.floor_le (re.jd * 1440)
    have h2 := Int.lt_floor_add_one (re.jd * 1440)
    have hi' : (i : ℝ) ≤ 359 := by exact_mod_cast Nat.le_of_lt_succ hi
    have hi0 : (0 : ℝ) ≤ i := Nat.cast_nonneg _
    rw [ht]
    refine ⟨?_, ?_, ⌊re.jd * 1440⌋ - 180 + i, ?_⟩
    · rw [le_div_iff₀ (by norm_num)]; linarith
    · rw [div_lt_iff₀ (by norm_num)]; linarith
    · push_cast; ring

/-! ## The limb -/

/-- **C83 (limb).**  `bse2db` for a point of the fundamental plane: the place is the point of the ellipsoid under it, on the line to the centre of the Earth. -/
theorem c83_limb (x y : ℝ) (I : V3) (J W : ℝ) (hJW : (J, W) = bse2db ⟨x, y, 0⟩ I true) (hxy : x ≠ 0 ∨ y ≠ 0)
    (hpole : (rotX I.y ⟨x, y, 0⟩).x ≠ 0 ∨ (rotX I.y ⟨x, y, 0⟩).y ≠ 0) :
    -π < J ∧ J ≤ π ∧ -(π / 2) ≤ W ∧ W ≤ π / 2 ∧ ∃ μ : ℝ, 0 < μ ∧ AtPlace I ⟨μ * x, μ * y, 0⟩ J W := by
  have hb0 : 0 < cs_ba := by unfold cs_ba; norm_num
  obtain ⟨hJ, hW⟩ := Prod.mk.inj hJW
  rw [if_pos rfl] at hW
  have hpos : 0 < x * x + y * y := by
    rcases hxy with h | h
    · nlinarith [mul_self_pos.2 h, mul_self_nonneg y]
    · nlinarith [mul_self_pos.2 h, mul_self_nonneg x]
  obtain ⟨p, hp⟩ : ∃ p, p = xyz2llr ⟨x, y, 0⟩ := ⟨_, rfl⟩
  have hback := c37_xyz_llr_xyz ⟨x, y, 0⟩ (by rcases hxy with h | h; exacts [Or.inl h, Or.inr (Or.inl h)])
  rw [← hp] at hback
  have hpy : p.y = 0 := by
    rw [hp]; simp [xyz2llr]
  have hpz : 0 < p.z := by
    rw [hp]; show 0 < √(x * x + y * y + 0 * 0)
    exact sqrt_pos.2 (by linarith)
  obtain ⟨r1, -⟩ := c38_rotation p I.y (by rw [hpy]; constructor <;> linarith [pi_pos])
  obtain ⟨r, hr⟩ : ∃ r, r = llrConv p I.y := ⟨_, rfl⟩
  rw [← hp, ← hr] at hJ hW
  rw [← hr] at r1
  obtain ⟨k1, k2, k, hk⟩ := c36_rrad_real (r.x + I.x - I.z)
  -- the rotated direction
  have hrot : rotX I.y ⟨x, y, 0⟩ = ⟨p.z * (cos r.y * cos r.x), p.z * (cos r.y * sin r.x), p.z * sin r.y⟩ := by
    have e : (⟨x, y, 0⟩ : V3) = ⟨p.z * (dir p.x p.y).x, p.z * (dir p.x p.y).y, p.z * (dir p.x p.y).z⟩ := by
      rw [← hback]; unfold llr2xyz dir
      refine v3_ext ?_ ?_ ?_ <;> simp only [] <;> ring
    have e1 : cos r.y * cos r.x = (rotX I.y (dir p.x p.y)).x := by rw [← r1]; rfl
    have e2 : cos r.y * sin r.x = (rotX I.y (dir p.x p.y)).y := by rw [← r1]; rfl
    have e3 : sin r.y = (rotX I.y (dir p.x p.y)).z := by rw [← r1]; rfl
    rw [e1, e2, e3, e]
    unfold rotX
    refine v3_ext ?_ ?_ ?_ <;> simp only [] <;> ring
  have hry : -(π / 2) ≤ r.y ∧ r.y ≤ π / 2 := by
    rw [hr]; exact ⟨neg_pi_div_two_le_arcsin _, arcsin_le_pi_div_two _⟩
  have hc : 0 < cos r.y := by
    refine lt_of_le_of_ne (cos_nonneg_of_mem_Icc ⟨hry.1, hry.2⟩) fun h => ?_
    rw [hrot] at hpole
    simp only [← h, zero_mul, mul_zero, ne_eq, not_true_eq_false, or_self] at hpole
  obtain ⟨u, hu⟩ : ∃ u, u = arctan (cs_ba * tan W) := ⟨_, rfl⟩
  have hcu : 0 < cos u := by rw [hu]; exact cos_arctan_pos _
  have htu : tan u = tan r.y / cs_ba := by
    rw [hu, tan_arctan, hW, tan_arctan]; field_simp
  have hsu : cs_ba * sin u = cos u * tan r.y := by
    rw [tan_eq_sin_div_cos, div_eq_iff hcu.ne'] at htu
    rw [htu]; field_simp
  refine ⟨by rw [hJ]; exact k1, by rw [hJ]; exact k2, ?_, ?_, cos u / (cos r.y * p.z), by positivity, ?_⟩
  · rw [hW]; exact (neg_pi_div_two_lt_arctan _).le
  · rw [hW]; exact (arctan_lt_pi_div_two _).le
  · have hang : J + I.z - I.x = r.x + k * (2 * π) := by rw [hJ, hk]; ring
    obtain ⟨μ, hμ⟩ : ∃ μ, μ = cos u / (cos r.y * p.z) := ⟨_, rfl⟩
    rw [← hμ]
    have hsc : rotX I.y ⟨μ * x, μ * y, 0⟩ = ⟨μ * (rotX I.y ⟨x, y, 0⟩).x, μ * (rotX I.y ⟨x, y, 0⟩).y, μ * (rotX I.y ⟨x, y, 0⟩).z⟩ := by
      unfold rotX
      refine v3_ext ?_ ?_ ?_ <;> simp only [] <;> ring
    unfold AtPlace
    rw [hsc, hrot, hang]
    unfold surf
    simp only [← hu, cos_add_int_mul_two_pi, sin_add_int_mul_two_pi]
    have hμ' : μ * p.z * cos r.y = cos u := by rw [hμ]; field_simp
    refine v3_ext ?_ ?_ ?_
    · simp only []; rw [← hμ']; ring
    · simp only []; rw [← hμ']; ring
    · simp only []
      rw [hsu, tan_eq_sin_div_cos, ← hμ']
      field_simp

/-- the radius of the limb of the Earth in the fundamental plane: an ellipse of semi-axes 1 and `b`, in the direction `(x, y)` -/
def LimbRadius (b x y ρ : ℝ) : Prop := 0 < ρ ∧ ρ ^ 2 * (x ^ 2 + (y / b) ^ 2) = x ^ 2 + y ^ 2

theorem limb_approx (a ρ : ℝ) (ha0 : 0 ≤ a) (ha1 : a ≤ 1 / 4) (hρ : 0 < ρ) (hρ3 : ρ ^ 2 * (1 + a) = 1) :
    1 - a / 2 ≤ ρ ∧ ρ ≤ 1 - a / 2 + 3 * a ^ 2 / 8 := by
  constructor
  · by_contra hc
    push Not at hc
    have h1 : ρ ^ 2 < (1 - a / 2) ^ 2 := by nlinarith
    have h2 : (1 - a / 2) ^ 2 * (1 + a) ≤ 1 := by
      have e : (1 - a / 2) ^ 2 * (1 + a) = 1 - a ^ 2 * (3 / 4 - a / 4) := by ring
      rw [e]
      have : 0 ≤ a ^ 2 * (3 / 4 - a / 4) := mul_nonneg (by positivity) (by linarith)
      linarith
    nlinarith
  · by_contra hc
    push Not at hc
    have hB : 0 < 1 - a / 2 + 3 * a ^ 2 / 8 := by nlinarith
    have h1 : (1 - a / 2 + 3 * a ^ 2 / 8) ^ 2 < ρ ^ 2 := by nlinarith
    have h2 : 1 ≤ (1 - a / 2 + 3 * a ^ 2 / 8) ^ 2 * (1 + a) := by
      have e : (1 - a / 2 + 3 * a ^ 2 / 8) ^ 2 * (1 + a) = 1 + a ^ 3 * (5 / 8 - 15 * a / 64 + 9 * a ^ 2 / 64) := by ring
      rw [e]
      have : 0 ≤ a ^ 3 * (5 / 8 - 15 * a / 64 + 9 * a ^ 2 / 64) := mul_nonneg (by positivity) (by nlinarith [sq_nonneg a])
      linarith
    nlinarith

/-- **C83 (contacts).**  The first and last contacts of the axis (`fs = false`) and of the penumbra: with `r` the radius added, `τ` the correction of the instant, the moon moving uniformly by
`(dx, dy)` a day and not along a circle around the Earth's centre, there is a distance `d`, equal to the radius of the limb plus `r` up to `κ²/2` (`κ = 1/b² - 1`, about 0.0067), such that the
axis is at the distance `√(d² + τ²v²)` at the instant given; the contact of the axis is given at the place of the limb under the axis. -/
theorem c83_contact (s : RsState) (b : ℝ) (bseM bse : ℝ → V3) (jd dx dy : ℝ) (fs : Bool) (G : Gk) (hG : G = qrd s b bseM bse jd dx dy fs)
    (hb : 0.9 ≤ b ∧ b ≤ 1) (M : V3) (hM : M = bseM jd) (hm : dx * M.x + dy * M.y ≠ 0) (r : ℝ) (hr : r = if fs then (s.rSM M.z).r1 else 0) (hr0 : 0 ≤ r) :
    ∃ d X Y : ℝ, X = M.x + (G.t - jd) * dx ∧ Y = M.y + (G.t - jd) * dy ∧ (∀ ρ, LimbRadius b M.x M.y ρ → |d - (ρ + r)| ≤ (1 / b ^ 2 - 1) ^ 2 / 2)
      ∧ X ^ 2 + Y ^ 2 = d ^ 2 + (G.t - jd) ^ 2 * (dx ^ 2 + dy ^ 2) ∧ 0 < d
      ∧ (fs = false → (X ≠ 0 ∨ Y ≠ 0) → ((rotX (bse G.t).y ⟨X, Y, 0⟩).x ≠ 0 ∨ (rotX (bse G.t).y ⟨X, Y, 0⟩).y ≠ 0) →
          ∃ μ : ℝ, 0 < μ ∧ AtPlace (bse G.t) ⟨μ * X, μ * Y, 0⟩ G.J G.W) := by
  have hb0 : 0 < b := by linarith [hb.1]
  obtain ⟨κ, hκ⟩ : ∃ κ, κ = 1 / b ^ 2 - 1 := ⟨_, rfl⟩
  have hκ0 : 0 ≤ κ := by
    rw [hκ, sub_nonneg, le_div_iff₀ (by positivity)]; nlinarith [hb.2]
  have hκ1 : κ ≤ 1 / 4 := by
    rw [hκ, sub_le_iff_le_add, div_le_iff₀ (by positivity)]; nlinarith [hb.1]
  have hM0 : 0 < M.x * M.x + M.y * M.y := by
    by_contra h
    have h1 : M.x = 0 := by nlinarith [mul_self_nonneg M.x, mul_self_nonneg M.y]
    have h2 : M.y = 0 := by nlinarith [mul_self_nonneg M.x, mul_self_nonneg M.y]
    rw [h1, h2] at hm; simp at hm
  obtain ⟨q, hq⟩ : ∃ q, q = M.y * M.y / (M.x * M.x + M.y * M.y) := ⟨_, rfl⟩
  have hq0 : 0 ≤ q := by rw [hq]; exact div_nonneg (mul_self_nonneg _) hM0.le
  have hq1 : q ≤ 1 := by rw [hq, div_le_one hM0]; linarith [mul_self_nonneg M.x]
  obtain ⟨d, hd⟩ : ∃ d, d = 1 - (1 / (b * b) - 1) * M.y * M.y / (M.x * M.x + M.y * M.y) / 2 + r := ⟨_, rfl⟩
  have hd' : d = 1 - κ * q / 2 + r := by rw [hd, hκ, hq]; ring
  obtain ⟨t, ht⟩ : ∃ t, t = (d * d - M.x * M.x - M.y * M.y) / (dx * M.x + dy * M.y) / 2 := ⟨_, rfl⟩
  have hGt : G.t = jd + t := by
    rw [hG, ht, hd, hr, hM]; rfl
  have htau : G.t - jd = t := by rw [hGt]; ring
  have hdpos : 0 < d := by
    rw [hd']
    have := mul_le_mul hκ1 hq1 hq0 (by norm_num)
    linarith
  refine ⟨d, _, _, rfl, rfl, ?_, ?_, hdpos, ?_⟩
  · rintro ρ ⟨hρ, hρ2⟩
    obtain ⟨a, ha⟩ : ∃ a, a = κ * q := ⟨_, rfl⟩
    have ha0 : 0 ≤ a := by rw [ha]; exact mul_nonneg hκ0 hq0
    have haκ : a ≤ κ := by rw [ha]; nlinarith
    have ha1 : a ≤ 1 / 4 := le_trans haκ hκ1
    have hρ3 : ρ ^ 2 * (1 + a) = 1 := by
      have h1 : M.x ^ 2 + (M.y / b) ^ 2 = (M.x * M.x + M.y * M.y) * (1 + a) := by
        have e1 : q * (M.x * M.x + M.y * M.y) = M.y * M.y := by rw [hq]; exact div_mul_cancel₀ _ hM0.ne'
        have e2 : (M.y / b) ^ 2 = (κ + 1) * (M.y * M.y) := by rw [hκ]; field_simp; ring
        rw [e2, ha]; linear_combination -κ * e1
      rw [h1] at hρ2
      have h2 : (M.x * M.x + M.y * M.y) * (ρ ^ 2 * (1 + a)) = (M.x * M.x + M.y * M.y) * 1 := by linear_combination hρ2
      exact mul_left_cancel₀ hM0.ne' h2
    obtain ⟨hlow, hup⟩ := limb_approx a ρ ha0 ha1 hρ hρ3
    have hsq : a ^ 2 ≤ κ ^ 2 := pow_le_pow_left₀ ha0 haκ 2
    rw [← hκ, hd', ← ha, abs_le]
    constructor <;> linarith [sq_nonneg κ]
  · rw [htau]
    have h1 : t * (dx * M.x + dy * M.y) * 2 = d * d - M.x * M.x - M.y * M.y := by
      rw [ht, mul_right_comm, div_mul_cancel₀ _ (two_ne_zero), div_mul_cancel₀ _ hm]
    linear_combination h1
  · rintro hfs hX hpole
    rw [hfs] at hr
    simp only [Bool.false_eq_true, if_false] at hr
    have hJW : (G.J, G.W) = bse2db ⟨(M.x + t * dx) / d, (M.y + t * dy) / d, 0⟩ (bse G.t) true := by
      have h0 : (G.J, G.W) = bse2db ⟨(M.x + t * dx + (1 - b * b) * r * (M.x + t * dx) * (M.y + t * dy) / d / d / d * (M.y + t * dy)) / d,
          (M.y + t * dy - (1 - b * b) * r * (M.x + t * dx) * (M.y + t * dy) / d / d / d * (M.x + t * dx + (1 - b * b) * r * (M.x + t * dx) * (M.y + t * dy) / d / d / d * (M.y + t * dy))) / d, 0⟩ (bse G.t) true := by
        rw [hGt, hG, ht, hd, hr, hM, hfs]; rfl
      rw [h0, hr]
      simp
    rw [htau] at hX hpole ⊢
    have hsc : ∀ X Y : ℝ, rotX (bse G.t).y ⟨X / d, Y / d, 0⟩ = ⟨(rotX (bse G.t).y ⟨X, Y, 0⟩).x / d, (rotX (bse G.t).y ⟨X, Y, 0⟩).y / d, (rotX (bse G.t).y ⟨X, Y, 0⟩).z / d⟩ := by
      intro X Y
      unfold rotX
      refine v3_ext ?_ ?_ ?_ <;> simp only [] <;> ring
    obtain ⟨-, -, -, -, μ, hμ, hp⟩ := c83_limb _ _ _ _ _ hJW
      (by rcases hX with h | h; exacts [Or.inl (div_ne_zero h hdpos.ne'), Or.inr (div_ne_zero h hdpos.ne')])
      (by rw [hsc]; rcases hpole with h | h; exacts [Or.inl (div_ne_zero h hdpos.ne'), Or.inr (div_ne_zero h hdpos.ne')])
    refine ⟨μ / d, div_pos hμ hdpos, ?_⟩
    have e : (⟨μ / d * (M.x + t * dx), μ / d * (M.y + t * dy), 0⟩ : V3) = ⟨μ * ((M.x + t * dx) / d), μ * ((M.y + t * dy) / d), 0⟩ := by
      refine v3_ext ?_ ?_ ?_ <;> simp only [] <;> ring
    rw [e]; exact hp

/-! ## A concrete case -/

/-- with the axis through the centre of the Earth, the sun in the equator and the moon 60 Earth radii away, both limits of the penumbra exist -/
theorem limit_demo (h : ℝ) (hh : h = 1 ∨ h = -1) :
    ∃ R : Limit, R = nanbei ⟨0, 0, 60⟩ 13 2 h ((⟨0, 23000⟩ : RsState).rSM 60).r1 ⟨0, π / 2, 0⟩ ∧ R.W ≠ 100 ∧ 0 < h * R.y := by
  obtain ⟨I, hI⟩ : ∃ I : V3, I = ⟨0, π / 2, 0⟩ := ⟨_, rfl⟩
  obtain ⟨M, hM⟩ : ∃ M : V3, M = ⟨0, 0, 60⟩ := ⟨_, rfl⟩
  obtain ⟨s, hs⟩ : ∃ s : RsState, s = ⟨0, 23000⟩ := ⟨_, rfl⟩
  have hIy : I.y = π / 2 := by rw [hI]
  have hMz : M.z = 60 := by rw [hM]
  have ht : s.tanf1 = (cs_k0 + cs_k) / 23000 := by rw [hs]; rfl
  have key := c83_penumbra s M I 13 2 h (by rw [hMz]; norm_num) hh (by rw [hs]; norm_num)
    (by rw [hIy, cos_pi_div_two, abs_zero, zero_mul, add_zero, mul_one]; linarith [pi_lt_d6]) _ rfl (fun z => coneAt cs_k s.tanf1 M.z z) (fun z => rfl)
  obtain ⟨-, k2, sA, cA, h1, h2, -, h4⟩ := key
  rw [← hs, ← hM, ← hI, show (60 : ℝ) = M.z from hMz.symm]
  refine ⟨_, rfl, ?_, ?_⟩
  · have hhit : ∃ z, OnEarth I ⟨M.x - coneAt cs_k s.tanf1 M.z z * sA, M.y + coneAt cs_k s.tanf1 M.z z * cA, z⟩ := by
      have hon : ∀ z, OnEarth I ⟨M.x - coneAt cs_k s.tanf1 M.z z * sA, M.y + coneAt cs_k s.tanf1 M.z z * cA, z⟩
          ↔ (coneAt cs_k s.tanf1 M.z z * sA) ^ 2 + z ^ 2 + (coneAt cs_k s.tanf1 M.z z * cA / cs_ba) ^ 2 = 1 := by
        intro z
        unfold OnEarth OnEll rotX
        simp only [hIy, cos_pi_div_two, sin_pi_div_two, hM]
        rw [show ∀ k : ℝ, (0 - k * sA) ^ 2 + (0 * (0 + k * cA) - 1 * z) ^ 2 + ((1 * (0 + k * cA) + 0 * z) / cs_ba) ^ 2 = (k * sA) ^ 2 + z ^ 2 + (k * cA / cs_ba) ^ 2 from
          fun k => by ring, one_pow]
      simp only [hon]
      have hcont : ContinuousOn (fun z : ℝ => (coneAt cs_k s.tanf1 M.z z * sA) ^ 2 + z ^ 2 + (coneAt cs_k s.tanf1 M.z z * cA / cs_ba) ^ 2) (Set.Icc 0 1) := by
        unfold coneAt
        fun_prop
      have hiv := intermediate_value_Icc (show (0 : ℝ) ≤ 1 by norm_num) hcont
      have hmem : (1 : ℝ) ∈ Set.Icc ((coneAt cs_k s.tanf1 M.z 0 * sA) ^ 2 + 0 ^ 2 + (coneAt cs_k s.tanf1 M.z 0 * cA / cs_ba) ^ 2)
          ((coneAt cs_k s.tanf1 M.z 1 * sA) ^ 2 + 1 ^ 2 + (coneAt cs_k s.tanf1 M.z 1 * cA / cs_ba) ^ 2) := by
        constructor
        · have e : coneAt cs_k s.tanf1 M.z 0 ^ 2 ≤ 1 / 2 := by
            unfold coneAt; rw [hMz, ht]; unfold cs_k cs_k0; norm_num
          have e2 : (1 / cs_ba) ^ 2 ≤ 2 := by unfold cs_ba; norm_num
          have s1 : sA ^ 2 ≤ 1 := by nlinarith [sq_nonneg cA]
          have c1 : 0 ≤ cA ^ 2 := sq_nonneg _
          have f1 : (coneAt cs_k s.tanf1 M.z 0 * cA / cs_ba) ^ 2 = coneAt cs_k s.tanf1 M.z 0 ^ 2 * cA ^ 2 * (1 / cs_ba) ^ 2 := by ring
          have f2 : coneAt cs_k s.tanf1 M.z 0 ^ 2 * cA ^ 2 * (1 / cs_ba) ^ 2 ≤ 1 / 2 * cA ^ 2 * 2 :=
            mul_le_mul (mul_le_mul_of_nonneg_right e c1) e2 (by positivity) (by positivity)
          have f3 : (coneAt cs_k s.tanf1 M.z 0 * sA) ^ 2 ≤ 1 / 2 * sA ^ 2 := by
            rw [mul_pow]; exact mul_le_mul_of_nonneg_right e (sq_nonneg _)
          rw [f1]; nlinarith [sq_nonneg sA]
        · have := sq_nonneg (coneAt cs_k s.tanf1 M.z 1 * sA)
          have := sq_nonneg (coneAt cs_k s.tanf1 M.z 1 * cA / cs_ba)
          linarith
      obtain ⟨z, -, hz⟩ := hiv hmem
      exact ⟨z, hz⟩
    obtain ⟨c, -, -, -, -, -, -, -, w2, -⟩ := h4 hhit
    intro h100
    rw [h100] at w2
    linarith [pi_lt_d6]
  · have hMy : M.y = 0 := by rw [hM]
    rw [hMy, sub_zero] at k2
    exact k2

end Verif.Geom
