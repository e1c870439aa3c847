import Verif.SolarEclipse
import Verif.Props.LunarEclipse

/-!
# C43: solar eclipse types (exact arithmetic)
-/

namespace Verif.Geom

open Real

/-! ## Specification

The shadow axis is perpendicular to the plane of the observers and meets it at `c`; the disc of the moon (radius `k`) is at the distance `m` on
the axis, the disc of the sun (radius `K`) at the distance `S`. -/

/-- the points of the plane of the sun's disc that the observer at `o` cannot see: the line of sight meets the moon's disc -/
def hidden (c : ℂ) (k m S : ℝ) (o : ℂ) : Set ℂ := {s | o + (s - o) * ((m / S : ℝ) : ℂ) ∈ disc c k}

/-- part of the sun's disc is hidden from `o` (touching counts) -/
def SeesEclipse (c : ℂ) (K k m S : ℝ) (o : ℂ) : Prop := (disc c K ∩ hidden c k m S o).Nonempty
/-- the whole sun is hidden from `o` -/
def SeesTotal (c : ℂ) (K k m S : ℝ) (o : ℂ) : Prop := disc c K ⊆ hidden c k m S o
/-- the moon's disc is seen inside the sun's -/
def SeesRing (c : ℂ) (K k m S : ℝ) (o : ℂ) : Prop := hidden c k m S o ⊆ disc c K

/-! ## Geometry of the specification -/

theorem disc_subset' {c c' : ℂ} {m e : ℝ} (hm : 0 ≤ m) : disc c m ⊆ disc c' e ↔ ‖c - c'‖ ≤ e - m := by
  rw [← disc_subset hm]
  constructor
  · intro h p hp
    have : p + c' ∈ disc c' e := h (by simp only [disc, Set.mem_ofPred_eq] at hp ⊢; rwa [show p + c' - c = p - (c - c') by ring])
    simpa [disc] using this
  · intro h p hp
    have : p - c' ∈ disc 0 e := h (by simp only [disc, Set.mem_ofPred_eq] at hp ⊢; rwa [show p - c' - (c - c') = p - c by ring])
    simpa [disc] using this

theorem disc_meet' {c c' : ℂ} {m e : ℝ} (hm : 0 ≤ m) (he : 0 < e) : (disc c m ∩ disc c' e).Nonempty ↔ ‖c - c'‖ ≤ m + e := by
  constructor
  · rintro ⟨p, hp1, hp2⟩
    simp only [disc, Set.mem_ofPred_eq] at hp1 hp2
    have := norm_sub_le (p - c') (p - c)
    rw [show p - c' - (p - c) = c - c' by ring] at this
    linarith
  · intro h
    have h1 : (disc (c' - c) e ∩ disc 0 m).Nonempty := (disc_meet he hm).2 (by rw [norm_sub_rev]; linarith)
    obtain ⟨p, hp1, hp2⟩ := h1
    refine ⟨p + c, ?_, ?_⟩
    · simpa [disc] using hp2
    · simp only [disc, Set.mem_ofPred_eq] at hp1 ⊢
      rwa [show p + c - c' = p - (c' - c) by ring]

theorem hidden_disc (c : ℂ) (k : ℝ) {m S : ℝ} (hm : 0 < m) (hS : 0 < S) (o : ℂ) :
    hidden c k m S o = disc (o + (c - o) * ((S / m : ℝ) : ℂ)) (k * (S / m)) := by
  ext s
  simp only [hidden, disc, Set.mem_ofPred_eq]
  have hq : ((m / S : ℝ) : ℂ) * ((S / m : ℝ) : ℂ) = 1 := by
    rw [← Complex.ofReal_mul]
    rw [show m / S * (S / m) = 1 by field_simp]
    simp
  have e : o + (s - o) * ((m / S : ℝ) : ℂ) - c = (s - (o + (c - o) * ((S / m : ℝ) : ℂ))) * ((m / S : ℝ) : ℂ) := by
    linear_combination (c - o) * hq
  rw [e, norm_mul, Complex.norm_real, norm_eq_abs, abs_of_pos (by positivity)]
  rw [← le_div_iff₀ (by positivity)]
  rw [show k / (m / S) = k * (S / m) by field_simp]

theorem centres (c o : ℂ) {m S : ℝ} (hm : 0 < m) (hS : m < S) :
    ‖c - (o + (c - o) * ((S / m : ℝ) : ℂ))‖ = ‖o - c‖ * ((S - m) / m) := by
  have : c - (o + (c - o) * ((S / m : ℝ) : ℂ)) = (o - c) * (((S - m) / m : ℝ) : ℂ) := by
    rw [show (S - m) / m = S / m - 1 by field_simp]
    push_cast; ring
  rw [this, norm_mul, Complex.norm_real, norm_eq_abs, abs_of_pos]
  exact div_pos (by linarith) hm

variable {K k m S : ℝ}

theorem sees_eclipse (c o : ℂ) (hK : 0 < K) (hk : 0 < k) (hm : 0 < m) (hS : m < S) :
    SeesEclipse c K k m S o ↔ ‖o - c‖ ≤ k + (K + k) / (S - m) * m := by
  have hS0 : 0 < S := hm.trans hS
  have hd : 0 < S - m := by linarith
  unfold SeesEclipse
  rw [hidden_disc c k hm hS0 o, disc_meet' hK.le (by positivity), centres c o hm hS]
  rw [show ‖o - c‖ * ((S - m) / m) = ‖o - c‖ * (S - m) / m by ring, div_le_iff₀ hm]
  rw [show k + (K + k) / (S - m) * m = (k * S + K * m) / (S - m) by field_simp; ring, le_div_iff₀ hd]
  rw [show (K + k * (S / m)) * m = k * S + K * m by field_simp; ring]

theorem sees_total (c o : ℂ) (hK : 0 < K) (hm : 0 < m) (hS : m < S) :
    SeesTotal c K k m S o ↔ ‖o - c‖ ≤ k - (K - k) / (S - m) * m := by
  have hS0 : 0 < S := hm.trans hS
  have hd : 0 < S - m := by linarith
  unfold SeesTotal
  rw [hidden_disc c k hm hS0 o, disc_subset' hK.le, centres c o hm hS]
  rw [show ‖o - c‖ * ((S - m) / m) = ‖o - c‖ * (S - m) / m by ring, div_le_iff₀ hm]
  rw [show k - (K - k) / (S - m) * m = (k * S - K * m) / (S - m) by field_simp; ring, le_div_iff₀ hd]
  rw [show (k * (S / m) - K) * m = k * S - K * m by field_simp]

theorem sees_ring (c o : ℂ) (hk : 0 < k) (hm : 0 < m) (hS : m < S) :
    SeesRing c K k m S o ↔ ‖o - c‖ ≤ -(k - (K - k) / (S - m) * m) := by
  have hS0 : 0 < S := hm.trans hS
  have hd : 0 < S - m := by linarith
  unfold SeesRing
  rw [hidden_disc c k hm hS0 o, disc_subset' (by positivity), norm_sub_rev, centres c o hm hS]
  rw [show ‖o - c‖ * ((S - m) / m) = ‖o - c‖ * (S - m) / m by ring, div_le_iff₀ hm]
  rw [show -(k - (K - k) / (S - m) * m) = (K * m - k * S) / (S - m) by field_simp; ring, le_div_iff₀ hd]
  rw [show (K - k * (S / m)) * m = K * m - k * S by field_simp]

theorem sees_either (c o : ℂ) (hK : 0 < K) (hk : 0 < k) (hm : 0 < m) (hS : m < S) :
    (SeesTotal c K k m S o ∨ SeesRing c K k m S o) ↔ o ∈ disc c |k - (K - k) / (S - m) * m| := by
  rw [sees_total c o hK hm hS, sees_ring c o hk hm hS, ← le_max_iff, ← abs_eq_max_neg]
  rfl

/-! ## The quick classification -/

/-- the type of an eclipse whose umbra falls wholly on the Earth — the last branch of `ecFast` -/
noncomputable def EcIn.inner (i : EcIn) : String :=
  let lx := if i.fh2 < i.h then "T" else "A"
  open Classical in
  if |i.fh2| < i.h then
    let dr := i.vR * i.h / i.vL / i.mR
    let H1 := i.mR - dr - kMoon / i.f2
    let H2 := i.mR + dr - kMoon / i.f2
    if H1 > 0 ∧ H2 > 0 then "H" else if H2 > 0 then "H2" else if H1 > 0 then "H3" else lx
  else lx

theorem ecFast_lx (i : EcIn) (h : |sin i.L| ≤ 0.4) : (ecFast i).lx =
    if |i.gm| - (0.9972 + i.r1) > 0 then "N"
    else if |i.gm| - (0.9972 + |i.r2|) > 0 then "P"
    else if |i.gm| - 0.9972 > 0 then (if i.fh2 < i.h then "T0" else "A0")
    else if |i.gm| - (0.9972 - |i.r2|) > 0 then (if i.fh2 < i.h then "T1" else "A1")
    else i.inner := by
  unfold ecFast EcIn.inner
  rw [if_neg (by simpa using h)]
  simp only []
  by_cases h1 : |i.gm| - (0.9972 + i.r1) > 0
  · rw [if_pos h1, if_pos h1]
  by_cases h2 : |i.gm| - (0.9972 + |i.r2|) > 0
  · rw [if_neg h1, if_pos h2, if_neg h1, if_pos h2]
  by_cases h3 : |i.gm| - 0.9972 > 0
  · rw [if_neg h1, if_neg h2, if_pos h3, if_neg h1, if_neg h2, if_pos h3]
    by_cases hf : i.fh2 < i.h
    · rw [if_pos hf, if_pos hf]; rfl
    · rw [if_neg hf, if_neg hf]; rfl
  by_cases h4 : |i.gm| - (0.9972 - |i.r2|) > 0
  · rw [if_neg h1, if_neg h2, if_neg h3, if_pos h4, if_neg h1, if_neg h2, if_neg h3, if_pos h4]
    by_cases hf : i.fh2 < i.h
    · rw [if_pos hf, if_pos hf]; rfl
    · rw [if_neg hf, if_neg hf]; rfl
  rw [if_neg h1, if_neg h2, if_neg h3, if_neg h4, if_neg h1, if_neg h2, if_neg h3, if_neg h4]
  by_cases hh : |i.fh2| < i.h
  · rw [if_pos hh, if_pos hh]
  · rw [if_neg hh, if_neg hh]

theorem inner_cases (i : EcIn) : i.inner = "T" ∨ i.inner = "A" ∨ i.inner = "H" ∨ i.inner = "H2" ∨ i.inner = "H3" := by
  unfold EcIn.inner
  simp only []
  split_ifs <;> simp

/-- **C43 (types).**  `ecFast` gives one of eleven types. -/
theorem c43_quick_types (i : EcIn) :
    (ecFast i).lx ∈ ["N", "P", "T", "A", "T0", "A0", "T1", "A1", "H", "H2", "H3"] := by
  by_cases h : |sin i.L| ≤ 0.4
  · rw [ecFast_lx i h]
    have := inner_cases i
    split_ifs <;> simp
    rcases this with h | h | h | h | h <;> simp [h]
  · unfold ecFast
    rw [if_pos (not_le.1 h)]
    simp

/-- the five classes of eclipses: none, partial, axis outside the Earth, umbra partly outside, umbra inside -/
def eclipseClass (lx : String) : ℕ :=
  if lx = "N" then 0 else if lx = "P" then 1 else if lx = "T0" ∨ lx = "A0" then 2 else if lx = "T1" ∨ lx = "A1" then 3 else 4

theorem eclipseClass_eq (i : EcIn) (h : |sin i.L| ≤ 0.4) : eclipseClass (ecFast i).lx =
    if |i.gm| - (0.9972 + i.r1) > 0 then 0
    else if |i.gm| - (0.9972 + |i.r2|) > 0 then 1
    else if |i.gm| - 0.9972 > 0 then 2
    else if |i.gm| - (0.9972 - |i.r2|) > 0 then 3
    else 4 := by
  rw [ecFast_lx i h]
  have := inner_cases i
  split_ifs <;> first | rfl | (rcases this with h | h | h | h | h <;> rw [h] <;> rfl)

theorem ecFast_ac (i : EcIn) (h : |sin i.L| ≤ 0.4) (hac : (ecFast i).ac = true) :
    0.016 ≤ |(|i.gm| - (0.9972 + i.r1))| ∧ 0.016 ≤ |(|i.gm| - (0.9972 + |i.r2|))| ∧ 0.016 ≤ |(|i.gm| - 0.9972)| ∧ 0.016 ≤ |(|i.gm| - (0.9972 - |i.r2|))| ∧
    (eclipseClass (ecFast i).lx = 4 → 0.019 ≤ |i.fh2 - i.h| ∧ (|i.fh2| < i.h →
      0.019 ≤ |i.mR - i.vR * i.h / i.vL / i.mR - kMoon / i.f2| ∧ 0.019 ≤ |i.mR + i.vR * i.h / i.vL / i.mR - kMoon / i.f2|)) := by
  rw [eclipseClass_eq i h]
  have key : ∀ (p : Prop) [Decidable p] (b : Bool), (if p then false else b) = true → ¬ p ∧ b = true := by
    intro p _ b hb
    by_cases hp : p
    · rw [if_pos hp] at hb; exact absurd hb (by simp)
    · rw [if_neg hp] at hb; exact ⟨hp, hb⟩
  have fin : ∀ b : Bool, (if |(|i.gm| - (0.9972 - |i.r2|))| < 0.016 then false else if |(|i.gm| - 0.9972)| < 0.016 then false else
      if |(|i.gm| - (0.9972 + |i.r2|))| < 0.016 then false else if |(|i.gm| - (0.9972 + i.r1))| < 0.016 then false else b) = true →
      0.016 ≤ |(|i.gm| - (0.9972 + i.r1))| ∧ 0.016 ≤ |(|i.gm| - (0.9972 + |i.r2|))| ∧ 0.016 ≤ |(|i.gm| - 0.9972)| ∧ 0.016 ≤ |(|i.gm| - (0.9972 - |i.r2|))| := by
    intro b hb
    obtain ⟨a1, hb⟩ := key _ _ hb
    obtain ⟨a2, hb⟩ := key _ _ hb
    obtain ⟨a3, hb⟩ := key _ _ hb
    obtain ⟨a4, hb⟩ := key _ _ hb
    exact ⟨not_lt.1 a4, not_lt.1 a3, not_lt.1 a2, not_lt.1 a1⟩
  unfold ecFast at hac
  rw [if_neg (by simpa using h)] at hac
  simp only [] at hac
  by_cases h1 : |i.gm| - (0.9972 + i.r1) > 0
  · rw [if_pos h1] at hac ⊢
    obtain ⟨f1, f2, f3, f4⟩ := fin _ hac
    exact ⟨f1, f2, f3, f4, fun h => absurd h (by norm_num)⟩
  rw [if_neg h1] at hac ⊢
  by_cases h2 : |i.gm| - (0.9972 + |i.r2|) > 0
  · rw [if_pos h2] at hac ⊢
    obtain ⟨f1, f2, f3, f4⟩ := fin _ hac
    exact ⟨f1, f2, f3, f4, fun h => absurd h (by norm_num)⟩
  rw [if_neg h2] at hac ⊢
  by_cases h3 : |i.gm| - 0.9972 > 0
  · rw [if_pos h3] at hac ⊢
    obtain ⟨f1, f2, f3, f4⟩ := fin _ hac
    exact ⟨f1, f2, f3, f4, fun h => absurd h (by norm_num)⟩
  rw [if_neg h3] at hac ⊢
  by_cases h4 : |i.gm| - (0.9972 - |i.r2|) > 0
  · rw [if_pos h4] at hac ⊢
    obtain ⟨f1, f2, f3, f4⟩ := fin _ hac
    exact ⟨f1, f2, f3, f4, fun h => absurd h (by norm_num)⟩
  rw [if_neg h4] at hac ⊢
  by_cases hh : |i.fh2| < i.h
  · rw [if_pos hh] at hac
    obtain ⟨b1, hac⟩ := key _ _ hac
    obtain ⟨b2, hac⟩ := key _ _ hac
    obtain ⟨b3, hac⟩ := key _ _ hac
    obtain ⟨f1, f2, f3, f4⟩ := fin _ hac
    exact ⟨f1, f2, f3, f4, fun _ => ⟨not_lt.1 b3, fun _ => ⟨not_lt.1 b2, not_lt.1 b1⟩⟩⟩
  · rw [if_neg hh] at hac
    obtain ⟨b3, hac⟩ := key _ _ hac
    obtain ⟨f1, f2, f3, f4⟩ := fin _ hac
    exact ⟨f1, f2, f3, f4, fun _ => ⟨not_lt.1 b3, fun hc => absurd hc hh⟩⟩

theorem same_sign {a b δ : ℝ} (h1 : δ ≤ |a|) (h2 : |b - a| < δ) : a > 0 ↔ b > 0 := by
  obtain ⟨l, u⟩ := abs_lt.1 h2
  rcases abs_cases a with ⟨e, h0⟩ | ⟨e, h0⟩
  · constructor <;> intro <;> linarith
  · constructor <;> intro <;> linarith

/-- **C43 (certainty).**  A quick result marked as certain (`ac = 1`) is stable: if another computation of the same new moon moves each of the four margins (distance of the axis from the Earth's limb, less
or plus the radii) by less than 0.016 Earth radii, it gives the same class (none, partial, axis outside, umbra partly outside, umbra inside).  If the class is the last one and the heights of the vertex at the
middle, start and end move by less than 0.019, it gives the same type. -/
theorem c43_certain (i j : EcIn) (hi : |sin i.L| ≤ 0.4) (hj : |sin j.L| ≤ 0.4) (hac : (ecFast i).ac = true)
    (h1 : |(|j.gm| - j.r1) - (|i.gm| - i.r1)| < 0.016) (h2 : |(|j.gm| - |j.r2|) - (|i.gm| - |i.r2|)| < 0.016) (h3 : |(|j.gm| - |i.gm|)| < 0.016)
    (h4 : |(|j.gm| + |j.r2|) - (|i.gm| + |i.r2|)| < 0.016) :
    eclipseClass (ecFast j).lx = eclipseClass (ecFast i).lx ∧
    (eclipseClass (ecFast i).lx = 4 → (|j.fh2| < j.h ↔ |i.fh2| < i.h) → |(j.fh2 - j.h) - (i.fh2 - i.h)| < 0.019 →
      |(j.mR - j.vR * j.h / j.vL / j.mR - kMoon / j.f2) - (i.mR - i.vR * i.h / i.vL / i.mR - kMoon / i.f2)| < 0.019 →
      |(j.mR + j.vR * j.h / j.vL / j.mR - kMoon / j.f2) - (i.mR + i.vR * i.h / i.vL / i.mR - kMoon / i.f2)| < 0.019 → (ecFast j).lx = (ecFast i).lx) := by
  obtain ⟨a1, a2, a3, a4, a5⟩ := ecFast_ac i hi hac
  have s1 := same_sign (b := |j.gm| - (0.9972 + j.r1)) a1 (by rwa [show |j.gm| - (0.9972 + j.r1) - (|i.gm| - (0.9972 + i.r1)) = (|j.gm| - j.r1) - (|i.gm| - i.r1) by ring])
  have s2 := same_sign (b := |j.gm| - (0.9972 + |j.r2|)) a2 (by rwa [show |j.gm| - (0.9972 + |j.r2|) - (|i.gm| - (0.9972 + |i.r2|)) = (|j.gm| - |j.r2|) - (|i.gm| - |i.r2|) by ring])
  have s3 := same_sign (b := |j.gm| - 0.9972) a3 (by rwa [show |j.gm| - 0.9972 - (|i.gm| - 0.9972) = |j.gm| - |i.gm| by ring])
  have s4 := same_sign (b := |j.gm| - (0.9972 - |j.r2|)) a4 (by rwa [show |j.gm| - (0.9972 - |j.r2|) - (|i.gm| - (0.9972 - |i.r2|)) = (|j.gm| + |j.r2|) - (|i.gm| + |i.r2|) by ring])
  have hcls : eclipseClass (ecFast j).lx = eclipseClass (ecFast i).lx := by
    rw [eclipseClass_eq i hi, eclipseClass_eq j hj]
    simp only [s1, s2, s3, s4]
  refine ⟨hcls, fun h5 hiff e1 e2 e3 => ?_⟩
  obtain ⟨b1, b2⟩ := a5 h5
  rw [eclipseClass_eq i hi] at h5
  have n1 : ¬ |i.gm| - (0.9972 + i.r1) > 0 := fun h => by rw [if_pos h] at h5; exact absurd h5 (by norm_num)
  rw [if_neg n1] at h5
  have n2 : ¬ |i.gm| - (0.9972 + |i.r2|) > 0 := fun h => by rw [if_pos h] at h5; exact absurd h5 (by norm_num)
  rw [if_neg n2] at h5
  have n3 : ¬ |i.gm| - 0.9972 > 0 := fun h => by rw [if_pos h] at h5; exact absurd h5 (by norm_num)
  rw [if_neg n3] at h5
  have n4 : ¬ |i.gm| - (0.9972 - |i.r2|) > 0 := fun h => by rw [if_pos h] at h5; exact absurd h5 (by norm_num)
  rw [ecFast_lx i hi, ecFast_lx j hj, if_neg n1, if_neg n2, if_neg n3, if_neg n4, if_neg (by rwa [← s1]), if_neg (by rwa [← s2]), if_neg (by rwa [← s3]), if_neg (by rwa [← s4])]
  have hta : j.fh2 < j.h ↔ i.fh2 < i.h := by
    have := same_sign (δ := 0.019) (a := -(i.fh2 - i.h)) (b := -(j.fh2 - j.h)) (by rwa [abs_neg]) (by rw [← neg_sub', abs_neg]; exact e1)
    constructor
    · intro h; have := this.2 (by linarith); linarith
    · intro h; have := this.1 (by linarith); linarith
  unfold EcIn.inner
  simp only []
  by_cases hv : |i.fh2| < i.h
  · obtain ⟨c1, c2⟩ := b2 hv
    have t1 := same_sign c1 e2
    have t2 := same_sign c2 e3
    rw [if_pos hv, if_pos (hiff.2 hv)]
    simp only [t1, t2, hta]
  · rw [if_neg hv, if_neg (fun h => hv (hiff.1 h))]
    simp only [hta]

theorem radii (i : EcIn) (hm : 0 < i.mR) (hS : i.mR < i.sR) : |i.r2| < i.r1 := by
  have hd : 0 < i.sR - i.mR := by linarith
  have hq : 0 < i.mR / (i.sR - i.mR) := div_pos hm hd
  have e1 : i.r1 = kMoon + (kSun + kMoon) * (i.mR / (i.sR - i.mR)) := by unfold EcIn.r1 EcIn.f1; ring
  have e2 : i.r2 = kMoon - (kSun - kMoon) * (i.mR / (i.sR - i.mR)) := by unfold EcIn.r2 EcIn.f2; ring
  have hk : 0 < kMoon := by norm_num [kMoon]
  have hs : 0 < kSun := by norm_num [kSun]
  rw [abs_lt, e1, e2]
  constructor <;> nlinarith [mul_pos hk hq, mul_pos hs hq]

/-- **C43 (meaning of the quick classification).**  Let the axis of the moon's shadow pass the Earth's centre at the distance `|γ|` (the centre `c` of the shadow
in the fundamental plane).  Unless the moon is too far from the node (`|sin L| > 0.4`), the type tells exactly what the observers on the disc of radius
0.9972 around the Earth's centre can see: *N* nobody sees any part of the sun hidden; *P* somebody does, nobody sees the sun's disc covered or a ring;
*T0*, *A0* somebody sees it covered or a ring, the axis misses the disc; *T1*, *A1* the axis meets the disc, but a part of the umbra falls outside;
the rest: all who see the sun covered or a ring are on the disc. -/
theorem c43_quick_meaning (i : EcIn) (h : |sin i.L| ≤ 0.4) (hm : 0 < i.mR) (hS : i.mR < i.sR) (c : ℂ) (hc : ‖c‖ = |i.gm|) :
    let lx := (ecFast i).lx
    let earth := disc 0 0.9972
    let part := SeesEclipse c kSun kMoon i.mR i.sR
    let full := fun o => SeesTotal c kSun kMoon i.mR i.sR o ∨ SeesRing c kSun kMoon i.mR i.sR o
    (lx = "N" ↔ ∀ o ∈ earth, ¬ part o) ∧
    (lx = "P" ↔ (∃ o ∈ earth, part o) ∧ ∀ o ∈ earth, ¬ full o) ∧
    (lx ∈ ["T0", "A0"] ↔ (∃ o ∈ earth, full o) ∧ c ∉ earth) ∧
    (lx ∈ ["T1", "A1"] ↔ c ∈ earth ∧ ∃ o, full o ∧ o ∉ earth) ∧
    (lx ∈ ["T", "A", "H", "H2", "H3"] ↔ ∀ o, full o → o ∈ earth) := by
  intro lx earth part full
  have hk : 0 < kMoon := by norm_num [kMoon]
  have hs : 0 < kSun := by norm_num [kSun]
  have hr := radii i hm hS
  have hpart : ∀ o, part o ↔ o ∈ disc c i.r1 := fun o => sees_eclipse c o hs hk hm hS
  have hfull : ∀ o, full o ↔ o ∈ disc c |i.r2| := fun o => sees_either c o hs hk hm hS
  have hr0 := abs_nonneg i.r2
  have m1 : (∃ o ∈ earth, part o) ↔ |i.gm| ≤ 0.9972 + i.r1 := by
    have := disc_meet' (c := c) (c' := 0) (m := i.r1) (e := 0.9972) (by linarith) (by norm_num)
    rw [sub_zero, hc, add_comm] at this
    rw [← this]
    constructor
    · rintro ⟨o, h1, h2⟩; exact ⟨o, (hpart o).1 h2, h1⟩
    · rintro ⟨o, h1, h2⟩; exact ⟨o, h2, (hpart o).2 h1⟩
  have m2 : (∃ o ∈ earth, full o) ↔ |i.gm| ≤ 0.9972 + |i.r2| := by
    have := disc_meet' (c := c) (c' := 0) (m := |i.r2|) (e := 0.9972) hr0 (by norm_num)
    rw [sub_zero, hc, add_comm] at this
    rw [← this]
    constructor
    · rintro ⟨o, h1, h2⟩; exact ⟨o, (hfull o).1 h2, h1⟩
    · rintro ⟨o, h1, h2⟩; exact ⟨o, h2, (hfull o).2 h1⟩
  have m3 : c ∈ earth ↔ |i.gm| ≤ 0.9972 := by
    simp only [earth, disc, Set.mem_ofPred_eq, sub_zero, hc]
  have m4 : (∀ o, full o → o ∈ earth) ↔ |i.gm| ≤ 0.9972 - |i.r2| := by
    have := disc_subset' (c := c) (c' := 0) (m := |i.r2|) (e := 0.9972) hr0
    rw [sub_zero, hc] at this
    rw [← this]
    exact ⟨fun h o ho => h o ((hfull o).2 ho), fun h o ho => h ((hfull o).1 ho)⟩
  have n1 : (∀ o ∈ earth, ¬ part o) ↔ ¬ |i.gm| ≤ 0.9972 + i.r1 := by rw [← m1]; push Not; rfl
  have n2 : (∀ o ∈ earth, ¬ full o) ↔ ¬ |i.gm| ≤ 0.9972 + |i.r2| := by rw [← m2]; push Not; rfl
  have n4 : (∃ o, full o ∧ o ∉ earth) ↔ ¬ |i.gm| ≤ 0.9972 - |i.r2| := by rw [← m4]; push Not; rfl
  rw [n1, n2, m1, m2, m3, m4, n4]
  have hlx : lx = _ := ecFast_lx i h
  have hi := inner_cases i
  rw [hlx]
  by_cases h1 : |i.gm| - (0.9972 + i.r1) > 0
  · rw [if_pos h1]
    simp
    constructorm* _ ∧ _ <;> intros <;> linarith
  by_cases h2 : |i.gm| - (0.9972 + |i.r2|) > 0
  · rw [if_neg h1, if_pos h2]
    simp
    constructorm* _ ∧ _ <;> intros <;> linarith
  by_cases h3 : |i.gm| - 0.9972 > 0
  · rw [if_neg h1, if_neg h2, if_pos h3]
    by_cases hf : i.fh2 < i.h
    · rw [if_pos hf]
      simp
      constructorm* _ ∧ _ <;> intros <;> linarith
    · rw [if_neg hf]
      simp
      constructorm* _ ∧ _ <;> intros <;> linarith
  by_cases h4 : |i.gm| - (0.9972 - |i.r2|) > 0
  · rw [if_neg h1, if_neg h2, if_neg h3, if_pos h4]
    by_cases hf : i.fh2 < i.h
    · rw [if_pos hf]
      simp
      constructorm* _ ∧ _ <;> intros <;> linarith
    · rw [if_neg hf]
      simp
      constructorm* _ ∧ _ <;> intros <;> linarith
  · rw [if_neg h1, if_neg h2, if_neg h3, if_neg h4]
    rcases hi with hi | hi | hi | hi | hi <;> rw [hi] <;> simp <;>
    constructorm* _ ∧ _ <;> intros <;> linarith

theorem f2_pos (i : EcIn) (hS : i.mR < i.sR) : 0 < i.f2 := by
  unfold EcIn.f2
  exact div_pos (by norm_num [kSun, kMoon]) (by linarith)

/-- the observer under the axis sees the sun covered when the vertex of the umbra is below him, a ring when it is not above -/
theorem vertex (i : EcIn) (hS : i.mR < i.sR) (c : ℂ) (x : ℝ) (hx : 0 < i.mR - x) :
    (SeesTotal c kSun kMoon (i.mR - x) (i.sR - x) c ↔ i.fh2 ≤ x) ∧ (SeesRing c kSun kMoon (i.mR - x) (i.sR - x) c ↔ x ≤ i.fh2) := by
  have hk : 0 < kMoon := by norm_num [kMoon]
  have hs : 0 < kSun := by norm_num [kSun]
  have hf := f2_pos i hS
  have e : kMoon - (kSun - kMoon) / (i.sR - x - (i.mR - x)) * (i.mR - x) = i.f2 * (x - i.fh2) := by
    rw [show i.sR - x - (i.mR - x) = i.sR - i.mR by ring]
    have : kMoon / i.f2 * i.f2 = kMoon := div_mul_cancel₀ _ hf.ne'
    rw [show (kSun - kMoon) / (i.sR - i.mR) = i.f2 from rfl, EcIn.fh2]
    linear_combination -this
  rw [sees_total c c hs hx (by linarith), sees_ring c c hk hx (by linarith), e, sub_self, norm_zero]
  constructor
  · rw [mul_nonneg_iff_of_pos_left hf]; constructor <;> intro <;> linarith
  · rw [neg_nonneg, mul_nonpos_iff]
    constructor
    · rintro (h | h) <;> linarith
    · intro h; exact Or.inl ⟨hf.le, by linarith⟩

/-- **C43 (total or annular).**  The letter says what the observer on the axis sees at the height `h` of the Earth's surface there (the unit sphere;
height 0 if the axis misses it): the sun covered for *T*, *T0*, *T1* and the three mixed types, a ring for *A*, *A0*, *A1*. -/
theorem c43_quick_central (i : EcIn) (h : |sin i.L| ≤ 0.4) (hm : 1 < i.mR) (hS : i.mR < i.sR) (c : ℂ)
    (H : ℝ) (hH : 0 ≤ H) (hit : |i.gm| < 1 → i.gm ^ 2 + H ^ 2 = 1) (hmiss : 1 ≤ |i.gm| → H = 0) :
    let lx := (ecFast i).lx
    (lx ∈ ["T", "T0", "T1", "H", "H2", "H3"] → SeesTotal c kSun kMoon (i.mR - H) (i.sR - H) c)
    ∧ (lx ∈ ["A", "A0", "A1"] → SeesRing c kSun kMoon (i.mR - H) (i.sR - H) c) := by
  have hHh : H = i.h := by
    unfold EcIn.h
    by_cases g : |i.gm| < 1
    · rw [if_pos g, show 1 - i.gm * i.gm = H ^ 2 by linarith [hit g], sqrt_sq hH]
    · rw [if_neg g, hmiss (not_lt.1 g)]
  rw [hHh]
  have hh : i.h ≤ 1 := by
    unfold EcIn.h
    split_ifs
    · rw [show (1 : ℝ) = √1 by simp]
      exact sqrt_le_sqrt (by simp; nlinarith [mul_self_nonneg i.gm])
    · norm_num
  obtain ⟨v1, v2⟩ := vertex i hS c i.h (by linarith)
  intro lx
  rw [v1, v2]
  have hlx : lx = _ := ecFast_lx i h
  by_cases hf : i.fh2 < i.h
  · refine ⟨fun _ => hf.le, fun hA => ?_⟩
    exfalso
    have hin : i.inner ≠ "A" := by
      unfold EcIn.inner
      simp only [if_pos hf]
      split_ifs <;> simp
    rw [hlx] at hA
    simp only [if_pos hf] at hA
    rcases inner_cases i with g | g | g | g | g
    · rw [g] at hA; split_ifs at hA <;> simp at hA
    · exact hin g
    · rw [g] at hA; split_ifs at hA <;> simp at hA
    · rw [g] at hA; split_ifs at hA <;> simp at hA
    · rw [g] at hA; split_ifs at hA <;> simp at hA
  · refine ⟨fun hT => ?_, fun _ => not_lt.1 hf⟩
    exfalso
    have hin : i.inner = "A" := by
      have : ¬ |i.fh2| < i.h := fun g => hf ((le_abs_self _).trans_lt g)
      unfold EcIn.inner
      simp only [if_neg hf, if_neg this]
    rw [hlx, hin] at hT
    simp only [if_neg hf] at hT
    split_ifs at hT <;> simp at hT

/-- **C43 (mixed types).**  When the whole umbra falls on the Earth and its vertex is inside it (`|fh2| < h`), the type tells at which end of the path the observer
in the fundamental plane sees a ring: *T* at neither, *H3* only at the start, *H2* only at the end, *H* at both — the moon being `dr` nearer at the start and
farther at the end than in the middle. -/
theorem c43_quick_mixed (i : EcIn) (h : |sin i.L| ≤ 0.4) (hm : 0 < i.mR) (hS : i.mR < i.sR) (c : ℂ) (hc : ‖c‖ = |i.gm|)
    (hin : ∀ o, SeesTotal c kSun kMoon i.mR i.sR o ∨ SeesRing c kSun kMoon i.mR i.sR o → o ∈ disc 0 0.9972)
    (hv : |i.fh2| < i.h) (dr : ℝ) (hdr : dr = i.vR * i.h / i.vL / i.mR) (hpos : |dr| < i.mR) :
    let lx := (ecFast i).lx
    let start := SeesTotal c kSun kMoon (i.mR - dr) (i.sR - dr) c
    let finish := SeesTotal c kSun kMoon (i.mR + dr) (i.sR + dr) c
    (lx = "T" ↔ start ∧ finish) ∧ (lx = "H3" ↔ ¬ start ∧ finish) ∧ (lx = "H2" ↔ start ∧ ¬ finish) ∧ (lx = "H" ↔ ¬ start ∧ ¬ finish) := by
  intro lx start finish
  obtain ⟨p1, p2⟩ := abs_lt.1 hpos
  have s1 : start ↔ i.fh2 ≤ dr := (vertex i hS c dr (by linarith)).1
  have s2 : finish ↔ i.fh2 ≤ -dr := by
    have := (vertex i hS c (-dr) (by linarith)).1
    rwa [sub_neg_eq_add, sub_neg_eq_add] at this
  have hk : 0 < kMoon := by norm_num [kMoon]
  have hs : 0 < kSun := by norm_num [kSun]
  have hr := radii i hm hS
  have hr0 := abs_nonneg i.r2
  have m4 : |i.gm| ≤ 0.9972 - |i.r2| := by
    have := disc_subset' (c := c) (c' := 0) (m := |i.r2|) (e := 0.9972) hr0
    rw [sub_zero, hc] at this
    exact this.1 (fun o ho => hin o ((sees_either c o hs hk hm hS).2 ho))
  have hlx : lx = i.inner := by
    have : lx = _ := ecFast_lx i h
    rw [this, if_neg (by intro; linarith), if_neg (by intro; linarith), if_neg (by intro; linarith), if_neg (by intro; linarith)]
  have hf : i.fh2 < i.h := (le_abs_self _).trans_lt hv
  rw [hlx, s1, s2]
  unfold EcIn.inner
  simp only [if_pos hv, if_pos hf, ← hdr]
  have e1 : i.mR - dr - kMoon / i.f2 > 0 ↔ ¬ i.fh2 ≤ dr := by unfold EcIn.fh2; constructor <;> intro g <;> push Not at * <;> linarith
  have e2 : i.mR + dr - kMoon / i.f2 > 0 ↔ ¬ i.fh2 ≤ -dr := by unfold EcIn.fh2; constructor <;> intro g <;> push Not at * <;> linarith
  simp only [e1, e2]
  by_cases a : i.fh2 ≤ dr <;> by_cases b : i.fh2 ≤ -dr <;> simp [a, b]

/-! ## The general circumstances -/

theorem rSM_r1 (s : RsState) (m : ℝ) : (s.rSM m).r1 = cs_k + (cs_k0 + cs_k) / (m + s.dyj - m) * m := by
  simp [RsState.rSM, RsState.tanf1]

theorem rSM_ar2 (s : RsState) (m : ℝ) : (s.rSM m).ar2 = |cs_k2 - (cs_k0 - cs_k2) / (m + s.dyj - m) * m| := by
  simp [RsState.rSM, RsState.tanf2]

theorem rSM_sf (s : RsState) (hd : 0 < s.dyj) (c : ℂ) {m : ℝ} (hm : 0 < m) :
    ((s.rSM m).sf ≥ 1 ↔ SeesTotal c cs_k0 cs_k2 m (m + s.dyj) c) ∧ ((s.rSM m).sf ≤ 1 ↔ SeesRing c cs_k0 cs_k2 m (m + s.dyj) c) := by
  have hk : 0 < cs_k2 := by norm_num [cs_k2]
  have hs : 0 < cs_k0 := by norm_num [cs_k0]
  rw [sees_total c c hs hm (by linarith), sees_ring c c hk hm (by linarith), sub_self, norm_zero, add_sub_cancel_left]
  have e : (s.rSM m).sf = cs_k2 * (s.dyj + m) / (m * cs_k0) := by simp only [RsState.rSM]; field_simp
  have hmk : 0 < m * cs_k0 := mul_pos hm hs
  have e2 : cs_k2 - (cs_k0 - cs_k2) / s.dyj * m = (cs_k2 * (s.dyj + m) - m * cs_k0) / s.dyj := by field_simp; ring
  rw [e, e2, ge_iff_le, le_div_iff₀ hmk, div_le_one hmk]
  constructor
  · rw [le_div_iff₀ hd]; constructor <;> intro <;> linarith
  · rw [le_neg, neg_zero, div_le_iff₀ hd]; constructor <;> intro <;> linarith

/-- the Earth as an ellipsoid of revolution, turned by the angle `ε` about the x axis, is met by the line `(x, y, ·)` at the height `z` -/
def EarthAt (ε x y z : ℝ) : Prop := OnEll cs_ba 1 (rotX ε ⟨x, y, z⟩)

/-- **C43 (closest approach).**  The instant, the coordinates and the distance `feature` reports are those of the closest approach of the shadow axis to the
Earth's centre, the axis moving uniformly from its place at new moon with the mean velocity over ±0.04 days. -/
theorem c43_closest (s : RsState) (bseM bse : ℝ → V3) (jd : ℝ) :
    let R := feature s bseM bse jd
    let b := bseM s.Zjd
    let axis : ℝ → ℂ := fun t => ⟨b.x + R.vx * (t - s.Zjd), b.y + R.vy * (t - s.Zjd)⟩
    R.vx = ((bseM (s.Zjd + 0.04)).x - (bseM (s.Zjd - 0.04)).x) / 0.08 ∧ R.vy = ((bseM (s.Zjd + 0.04)).y - (bseM (s.Zjd - 0.04)).y) / 0.08 ∧
    (0 < R.v → axis R.jd = ⟨R.xc, R.yc⟩ ∧ ‖axis R.jd‖ = R.d ∧ |R.D| = R.d ∧ ∀ t, R.d ≤ ‖axis t‖) := by
  intro R b axis
  refine ⟨?_, ?_, fun hv => ?_⟩
  · show _ / 0.04 / 2 = _
    rw [div_div]; norm_num
  · show _ / 0.04 / 2 = _
    rw [div_div]; norm_num
  · have hvv : 0 < R.vx * R.vx + R.vy * R.vy := by
      have : R.v = √(R.vx * R.vx + R.vy * R.vy) := rfl
      rw [this] at hv
      exact sqrt_pos.1 hv
    have hv2 : R.v * R.v = R.vx * R.vx + R.vy * R.vy := mul_self_sqrt hvv.le
    obtain ⟨t0, ht0⟩ : ∃ t0, t0 = -(b.x * R.vx + b.y * R.vy) / (R.v * R.v) := ⟨_, rfl⟩
    have hjd : R.jd = s.Zjd + t0 := by rw [ht0]; rfl
    have hxc : R.xc = b.x + R.vx * t0 := by rw [ht0]; rfl
    have hyc : R.yc = b.y + R.vy * t0 := by rw [ht0]; rfl
    have hD : R.D = (R.vx * b.y - R.vy * b.x) / R.v := rfl
    have hd : R.d = |R.D| := rfl
    have e1 : axis R.jd = ⟨R.xc, R.yc⟩ := by
      show (⟨_, _⟩ : ℂ) = _
      rw [hjd, hxc, hyc, add_sub_cancel_left]
    have hn : ∀ t, ‖axis t‖ = √((b.x + R.vx * (t - s.Zjd)) ^ 2 + (b.y + R.vy * (t - s.Zjd)) ^ 2) := fun t => by
      rw [show axis t = ⟨b.x + R.vx * (t - s.Zjd), b.y + R.vy * (t - s.Zjd)⟩ from rfl, Complex.norm_def, Complex.normSq_mk]
      congr 1; ring
    have hq : t0 * (R.vx * R.vx + R.vy * R.vy) = -(b.x * R.vx + b.y * R.vy) := by
      rw [← hv2, ht0, div_mul_cancel₀ _ (by rw [hv2]; exact hvv.ne')]
    have e2 : ‖axis R.jd‖ = R.d := by
      rw [hn, hjd, add_sub_cancel_left, hd, hD, ← sqrt_sq_eq_abs, div_pow, sq R.v, hv2]
      congr 1
      rw [eq_div_iff hvv.ne']
      linear_combination (t0 * (R.vx * R.vx + R.vy * R.vy) + (b.x * R.vx + b.y * R.vy)) * hq
    refine ⟨e1, e2, rfl, fun t => ?_⟩
    rw [← e2, hn, hn]
    apply sqrt_le_sqrt
    have := least b.x b.y R.vx R.vy (by linarith) (t - s.Zjd)
    have e3 : -(b.y * R.vy + b.x * R.vx) / (R.vy * R.vy + R.vx * R.vx) = t0 := by
      rw [div_eq_iff (by linarith)]; linarith
    rw [e3] at this
    rw [hjd, add_sub_cancel_left]
    linarith

theorem onLine_rot (ε x y t : ℝ) : onLine (rotX ε ⟨x, y, 2⟩) (rotX ε ⟨x, y, 0⟩) t = rotX ε ⟨x, y, 2 - 2 * t⟩ := by
  simp only [onLine, rotX]
  refine v3_ext ?_ ?_ ?_ <;> simp <;> ring

theorem rot_ne (ε x y : ℝ) : (rotX ε ⟨x, y, 2⟩).x ≠ (rotX ε ⟨x, y, 0⟩).x ∨ (rotX ε ⟨x, y, 2⟩).y ≠ (rotX ε ⟨x, y, 0⟩).y
    ∨ (rotX ε ⟨x, y, 2⟩).z ≠ (rotX ε ⟨x, y, 0⟩).z := by
  by_contra hc
  push Not at hc
  obtain ⟨-, h2, h3⟩ := hc
  simp only [rotX] at h2 h3
  have e1 : sin ε = 0 := by linarith
  have e2 : cos ε = 0 := by linarith
  have := sin_sq_add_cos_sq ε
  rw [e1, e2] at this
  norm_num at this

theorem earth_height {ε x y z : ℝ} (h : EarthAt ε x y z) : z ≤ 1 ∧ -1 ≤ z := by
  unfold EarthAt OnEll at h
  simp only [rotX] at h
  obtain ⟨Y, hY⟩ : ∃ Y, Y = cos ε * y - sin ε * z := ⟨_, rfl⟩
  obtain ⟨Z, hZ⟩ : ∃ Z, Z = sin ε * y + cos ε * z := ⟨_, rfl⟩
  rw [← hY, ← hZ] at h
  have hn : Y * Y + Z * Z = y * y + z * z := by
    have := sin_sq_add_cos_sq ε
    rw [hY, hZ]; linear_combination (y * y + z * z) * this
  have hb : Z * Z ≤ Z * Z / (cs_ba * cs_ba) := by
    rw [le_div_iff₀ (by norm_num [cs_ba])]
    have : cs_ba * cs_ba ≤ 1 := by norm_num [cs_ba]
    nlinarith [mul_self_nonneg Z]
  have h1 : z * z ≤ 1 := by
    have e : (Z / cs_ba) ^ 2 = Z * Z / (cs_ba * cs_ba) := by rw [div_pow]; ring
    rw [e] at h
    nlinarith [mul_self_nonneg x, mul_self_nonneg y]
  constructor <;> nlinarith

/-- what `lineEar2` gives `feature`: latitude 100 exactly when the axis misses the Earth, otherwise the distance of the highest point from the fundamental plane -/
theorem ear_axis (x y : ℝ) (I : V3) :
    ((lineEar2 ⟨x, y, 2⟩ ⟨x, y, 0⟩ cs_ba 1 I).2.2 = 100 ↔ ∀ z, ¬ EarthAt I.y x y z)
    ∧ ∀ z0, EarthAt I.y x y z0 → (∀ z, EarthAt I.y x y z → z ≤ z0) → (lineEar2 ⟨x, y, 2⟩ ⟨x, y, 0⟩ cs_ba 1 I).1.R2 = |z0| := by
  have hba : cs_ba ≠ 0 := by norm_num [cs_ba]
  obtain ⟨g1, g2⟩ := c39_lineEll (rotX I.y ⟨x, y, 2⟩) (rotX I.y ⟨x, y, 0⟩) cs_ba 1 hba (rot_ne I.y x y)
  obtain ⟨k1, k2, -⟩ := c39_lineEar2 ⟨x, y, 2⟩ ⟨x, y, 0⟩ cs_ba 1 I
  have hall : (∀ t, ¬ OnEll cs_ba 1 (onLine (rotX I.y ⟨x, y, 2⟩) (rotX I.y ⟨x, y, 0⟩) t)) ↔ ∀ z, ¬ EarthAt I.y x y z := by
    constructor
    · intro h z hz
      refine h ((2 - z) / 2) ?_
      rw [onLine_rot, show 2 - 2 * ((2 - z) / 2) = z by ring]
      exact hz
    · intro h t ht
      rw [onLine_rot] at ht
      exact h _ ht
  rw [hall] at g1
  constructor
  · rw [← g1, ← k1]
    constructor
    · intro h
      by_contra hD
      have : (lineEar2 ⟨x, y, 2⟩ ⟨x, y, 0⟩ cs_ba 1 I).2.2 < 100 := by
        have hp : π < 4 := pi_lt_four
        rw [k1] at hD
        unfold lineEar2
        simp only []
        rw [if_neg (by simpa [rotX] using hD)]
        have := arctan_lt_pi_div_two
        exact lt_trans (this _) (by linarith)
      linarith
    · intro h
      rw [k2 h]
  · intro z0 hz0 hmax
    have hD : ¬ (lineEll (rotX I.y ⟨x, y, 2⟩) (rotX I.y ⟨x, y, 0⟩) cs_ba 1).D < 0 := fun h => g1.1 h z0 hz0
    obtain ⟨c, -, ⟨t, ht⟩, hc, hnear, -, hR2⟩ := g2 hD
    rw [k1, hR2, ht, onLine_rot]
    rw [ht, onLine_rot] at hc hnear
    have hrot : ∀ z w, dist3 (rotX I.y ⟨x, y, z⟩) (rotX I.y ⟨x, y, w⟩) = |z - w| := fun z w => by
      simp only [dist3, rotX]
      rw [← sqrt_sq_eq_abs]
      congr 1
      have := sin_sq_add_cos_sq I.y
      linear_combination (z - w) ^ 2 * this
    have h1 := hnear ((2 - z0) / 2) (by rw [onLine_rot, show 2 - 2 * ((2 - z0) / 2) = z0 by ring]; exact hz0)
    rw [onLine_rot, show 2 - 2 * ((2 - z0) / 2) = z0 by ring, hrot, hrot] at h1
    have h2 := hmax _ hc
    have b1 := earth_height hz0
    have b2 := earth_height hc
    rw [abs_of_nonpos (by linarith), abs_of_nonpos (by linarith)] at h1
    rw [hrot, sub_zero, show 2 - 2 * t = z0 by linarith]

/-- the height of the moon above the fundamental plane at the instant `t`, as `feature` extrapolates it from its table -/
noncomputable def moonHeight (s : RsState) (bseM : ℝ → V3) (t : ℝ) : ℝ :=
  (t - s.Zjd) * (((bseM (s.Zjd + 0.04)).z - (bseM (s.Zjd - 0.04)).z) / 0.08) + (bseM s.Zjd).z - 1.37 * (t - s.Zjd) * (t - s.Zjd)

theorem feature_kind (s : RsState) (bseM bse : ℝ → V3) (jd : ℝ) (R : Feature) (hR : R = feature s bseM bse jd) :
    R.lx = (s.kind R.d R.zc (lineEar2 ⟨R.xc, R.yc, 2⟩ ⟨R.xc, R.yc, 0⟩ cs_ba 1 (bse R.jd)).2.2
      (lineEar2 ⟨R.xc, R.yc, 2⟩ ⟨R.xc, R.yc, 0⟩ cs_ba 1 (bse R.jd)).1.R2
      (moonHeight s bseM (R.jd - √(1 - R.d * R.d) / R.v)) (moonHeight s bseM (R.jd + √(1 - R.d * R.d) / R.v))).2 := by
  obtain ⟨b, hb⟩ : ∃ b, b = bseM s.Zjd := ⟨_, rfl⟩
  obtain ⟨t0, ht0⟩ : ∃ t0, t0 = -(b.x * R.vx + b.y * R.vy) / (R.v * R.v) := ⟨_, rfl⟩
  obtain ⟨vz, hvz⟩ : ∃ vz, vz = ((bseM (s.Zjd + 0.04)).z - (bseM (s.Zjd - 0.04)).z) / 0.04 / 2 := ⟨_, rfl⟩
  have hz8 : ((bseM (s.Zjd + 0.04)).z - (bseM (s.Zjd - 0.04)).z) / 0.08 = vz := by rw [hvz, div_div]; norm_num
  have hjd : R.jd = s.Zjd + t0 := by rw [ht0, hb, hR]; rfl
  have hh : ∀ dt, moonHeight s bseM (R.jd + dt) = (t0 + dt) * vz + b.z - 1.37 * (t0 + dt) * (t0 + dt) := fun dt => by
    unfold moonHeight
    rw [hz8, hjd, hb, show s.Zjd + t0 + dt - s.Zjd = t0 + dt by ring]
  have hm := hh (-(√(1 - R.d * R.d) / R.v))
  rw [← sub_eq_add_neg, ← sub_eq_add_neg] at hm
  rw [hm, hh, ht0, hb, hvz, hR]
  rfl

/-- **C43 (eclipses without a central line).**  When the axis misses the Earth (an ellipsoid): *N* — nobody on the disc of radius 0.9972 in the fundamental plane sees
any part of the sun hidden; *P* — somebody does, nobody sees it covered or a ring; *T0* — somebody sees it covered; *A0* — somebody sees a ring and nobody sees it
covered. -/
theorem c43_feature_noncentral (s : RsState) (bseM bse : ℝ → V3) (jd : ℝ) (R : Feature) (hR : R = feature s bseM bse jd) (hdy : 0 < s.dyj)
    (hv : 0 < R.v) (hz : 0 < R.zc) (hmiss : ∀ z, ¬ EarthAt (bse R.jd).y R.xc R.yc z) :
    let c : ℂ := ⟨R.xc, R.yc⟩
    let earth := disc 0 0.9972
    let part := SeesEclipse c cs_k0 cs_k R.zc (R.zc + s.dyj)
    let tot := SeesTotal c cs_k0 cs_k2 R.zc (R.zc + s.dyj)
    let ring := SeesRing c cs_k0 cs_k2 R.zc (R.zc + s.dyj)
    (R.lx = "N" ↔ ∀ o ∈ earth, ¬ part o) ∧
    (R.lx = "P" ↔ (∃ o ∈ earth, part o) ∧ ∀ o ∈ earth, ¬ tot o ∧ ¬ ring o) ∧
    (R.lx = "T0" ↔ ∃ o ∈ earth, tot o) ∧
    (R.lx = "A0" ↔ (∃ o ∈ earth, ring o) ∧ ∀ o ∈ earth, ¬ tot o) := by
  intro c earth part tot ring
  have hcl := (c43_closest s bseM bse jd).2.2
  simp only [← hR] at hcl
  obtain ⟨e1, e2, -, -⟩ := hcl hv
  have hc : ‖c‖ = R.d := by rw [← e2, e1]
  have hW := (ear_axis R.xc R.yc (bse R.jd)).1.2 hmiss
  obtain ⟨B, hB⟩ : ∃ B, B = s.rSM R.zc := ⟨_, rfl⟩
  have hlx : R.lx = if R.d > 0.9972 + B.r1 then "N" else if R.d > 0.9972 + B.ar2 then "P" else if B.sf < 1 then "A0" else "T0" := by
    rw [feature_kind s bseM bse jd R hR, hW]
    unfold RsState.kind
    simp only [← hB]
    rw [if_pos trivial]
    split_ifs <;> rfl
  have hk : 0 < cs_k := by norm_num [cs_k]
  have hk2 : 0 < cs_k2 := by norm_num [cs_k2]
  have hs : 0 < cs_k0 := by norm_num [cs_k0]
  have hS : R.zc < R.zc + s.dyj := by linarith
  obtain ⟨r2, hr2⟩ : ∃ r2, r2 = cs_k2 - (cs_k0 - cs_k2) / (R.zc + s.dyj - R.zc) * R.zc := ⟨_, rfl⟩
  have hpart : ∀ o, part o ↔ o ∈ disc c B.r1 := fun o => by rw [hB, rSM_r1]; exact sees_eclipse c o hs hk hz hS
  have htot : ∀ o, tot o ↔ o ∈ disc c r2 := fun o => by rw [hr2]; exact sees_total c o hs hz hS
  have hring : ∀ o, ring o ↔ o ∈ disc c (-r2) := fun o => by rw [hr2]; exact sees_ring c o hk2 hz hS
  have hsf : B.sf < 1 ↔ r2 < 0 := by
    rw [← not_le, ← ge_iff_le, hB, (rSM_sf s hdy c hz).1, show SeesTotal c cs_k0 cs_k2 R.zc (R.zc + s.dyj) c ↔ c ∈ disc c r2 from htot c]
    simp [disc]
  have har : B.ar2 = |r2| := by rw [hB, rSM_ar2, hr2]
  have hr : |r2| < B.r1 := by
    rw [hB, rSM_r1, hr2, add_sub_cancel_left]
    have hq : 0 < R.zc / s.dyj := div_pos hz hdy
    rw [abs_lt]
    rw [show (cs_k0 + cs_k) / s.dyj * R.zc = (cs_k0 + cs_k) * (R.zc / s.dyj) by ring, show (cs_k0 - cs_k2) / s.dyj * R.zc = (cs_k0 - cs_k2) * (R.zc / s.dyj) by ring]
    have hk2k : cs_k2 < cs_k := by norm_num [cs_k, cs_k2]
    constructor <;> nlinarith [mul_pos hk hq, mul_pos hs hq, mul_pos hk2 hq]
  have meet : ∀ r, 0 ≤ r → ((∃ o ∈ earth, o ∈ disc c r) ↔ R.d ≤ 0.9972 + r) := fun r hr => by
    have := disc_meet' (c := c) (c' := 0) (m := r) (e := 0.9972) hr (by norm_num)
    rw [sub_zero, hc, add_comm] at this
    rw [← this]
    constructor
    · rintro ⟨o, h1, h2⟩; exact ⟨o, h2, h1⟩
    · rintro ⟨o, h1, h2⟩; exact ⟨o, h2, h1⟩
  have hneg : ∀ r, r < 0 → ∀ o, o ∉ disc c r := fun r hr o ho => by
    have : ‖o - c‖ ≤ r := ho
    linarith [norm_nonneg (o - c)]
  have m1 : (∃ o ∈ earth, part o) ↔ R.d ≤ 0.9972 + B.r1 := by
    rw [← meet _ ((abs_nonneg r2).trans hr.le)]; simp only [hpart]
  have n1 : (∀ o ∈ earth, ¬ part o) ↔ ¬ R.d ≤ 0.9972 + B.r1 := by rw [← m1]; push Not; rfl
  rw [n1, m1]
  rcases lt_or_ge r2 0 with hneg2 | hpos2
  · have hab : |r2| = -r2 := abs_of_neg hneg2
    have m2 : (∃ o ∈ earth, ring o) ↔ R.d ≤ 0.9972 + |r2| := by
      rw [← meet _ (abs_nonneg r2), hab]; simp only [hring]
    have t2 : ∀ o, ¬ tot o := fun o h => hneg _ hneg2 o ((htot o).1 h)
    have n2 : (∀ o ∈ earth, ¬ tot o ∧ ¬ ring o) ↔ ¬ R.d ≤ 0.9972 + |r2| := by
      rw [← m2]; push Not; exact ⟨fun h o ho => (h o ho).2, fun h o ho => ⟨t2 o, h o ho⟩⟩
    have t3 : (∃ o ∈ earth, tot o) ↔ False := ⟨fun ⟨o, _, h⟩ => t2 o h, False.elim⟩
    have t4 : (∀ o ∈ earth, ¬ tot o) ↔ True := ⟨fun _ => trivial, fun _ o _ => t2 o⟩
    rw [n2, m2, t3, t4, hlx, har]
    simp only [hsf, hneg2, if_true]
    by_cases a : R.d > 0.9972 + B.r1
    · simp [a, not_le.2 (show 0.9972 + |r2| < R.d by linarith)]
    · by_cases b : R.d > 0.9972 + |r2|
      · simp [a, b, not_lt.1 a]
      · simp [a, b, not_lt.1 a, not_lt.1 b]
  · have hab : |r2| = r2 := abs_of_nonneg hpos2
    have m2 : (∃ o ∈ earth, tot o) ↔ R.d ≤ 0.9972 + |r2| := by
      rw [← meet _ (abs_nonneg r2), hab]; simp only [htot]
    have t2 : ∀ o, ring o → tot o := fun o h => by
      rw [htot]; have h1 : ‖o - c‖ ≤ -r2 := (hring o).1 h
      show ‖o - c‖ ≤ r2; linarith
    have n3 : (∀ o ∈ earth, ¬ tot o) ↔ ¬ R.d ≤ 0.9972 + |r2| := by rw [← m2]; push Not; rfl
    have n2 : (∀ o ∈ earth, ¬ tot o ∧ ¬ ring o) ↔ ¬ R.d ≤ 0.9972 + |r2| := by
      rw [← n3]; exact ⟨fun h o ho => (h o ho).1, fun h o ho => ⟨h o ho, fun g => h o ho (t2 o g)⟩⟩
    have t3 : ((∃ o ∈ earth, ring o) ∧ ¬ R.d ≤ 0.9972 + |r2|) ↔ False := by
      refine ⟨?_, False.elim⟩
      rintro ⟨⟨o, h1, h2⟩, h3⟩
      exact h3 (m2.1 ⟨o, h1, t2 o h2⟩)
    rw [n2, n3, m2, t3, hlx, har]
    simp only [hsf, not_lt.2 hpos2, if_false]
    by_cases a : R.d > 0.9972 + B.r1
    · simp [a, not_le.2 (show 0.9972 + |r2| < R.d by linarith)]
    · by_cases b : R.d > 0.9972 + |r2|
      · simp [a, b, not_lt.1 a]
      · simp [a, b, not_lt.1 a, not_lt.1 b]

/-- **C43 (eclipses with a central line).**  When the axis meets the Earth, `z0` being the height of the highest common point: *T1*, *A1* — part of the umbra, cut at the
distance `|z0|` above the fundamental plane, lies outside the disc of radius 0.9966; *A*, *A1* — the observer there does not see the sun covered.  In the
other types he does, and with the whole umbra inside, *T*, *H2*, *H3*, *H* tell what is seen at the instants `t2`, `t3` when the axis crosses the unit
circle: *T* no ring at either, *H2* a ring at the end only, *H3* at the start only, *H* at both. -/
theorem c43_feature_central (s : RsState) (bseM bse : ℝ → V3) (jd : ℝ) (R : Feature) (hR : R = feature s bseM bse jd) (hdy : 0 < s.dyj)
    (hv : 0 < R.v) (z0 : ℝ) (hz0 : EarthAt (bse R.jd).y R.xc R.yc z0) (hmax : ∀ z, EarthAt (bse R.jd).y R.xc R.yc z → z ≤ z0)
    (m : ℝ) (hm : m = R.zc - |z0|) (hpos : 0 < m) :
    let c : ℂ := ⟨R.xc, R.yc⟩
    let b := bseM s.Zjd
    let axis : ℝ → ℂ := fun t => ⟨b.x + R.vx * (t - s.Zjd), b.y + R.vy * (t - s.Zjd)⟩
    let tot := SeesTotal c cs_k0 cs_k2 m (m + s.dyj)
    let ring := SeesRing c cs_k0 cs_k2 m (m + s.dyj)
    let inside := ∀ o, tot o ∨ ring o → o ∈ disc 0 0.9966
    (R.lx ∈ ["T1", "A1"] ↔ ¬ inside) ∧ (R.lx ∈ ["A", "A1"] ↔ ¬ tot c) ∧ R.lx ∈ ["T", "A", "T1", "A1", "H", "H2", "H3"] ∧
    (inside → tot c → ∃ t2 t3 : ℝ, t2 ≤ R.jd ∧ R.jd ≤ t3 ∧ ‖axis t2‖ = 1 ∧ ‖axis t3‖ = 1 ∧
      (0 < moonHeight s bseM t2 → 0 < moonHeight s bseM t3 →
        let start := SeesRing c cs_k0 cs_k2 (moonHeight s bseM t2) (moonHeight s bseM t2 + s.dyj) c
        let finish := SeesRing c cs_k0 cs_k2 (moonHeight s bseM t3) (moonHeight s bseM t3 + s.dyj) c
        (R.lx = "T" ↔ ¬ start ∧ ¬ finish) ∧ (R.lx = "H2" ↔ ¬ start ∧ finish) ∧ (R.lx = "H3" ↔ start ∧ ¬ finish) ∧ (R.lx = "H" ↔ start ∧ finish))) := by
  intro c b axis tot ring inside
  obtain ⟨-, -, hcl⟩ := c43_closest s bseM bse jd
  simp only [← hR] at hcl
  obtain ⟨e1, e2, -, -⟩ := hcl hv
  have hc : ‖c‖ = R.d := by rw [← e2, e1]
  have hW : (lineEar2 ⟨R.xc, R.yc, 2⟩ ⟨R.xc, R.yc, 0⟩ cs_ba 1 (bse R.jd)).2.2 ≠ 100 :=
    fun h => (ear_axis R.xc R.yc (bse R.jd)).1.1 h z0 hz0
  have hR2 := (ear_axis R.xc R.yc (bse R.jd)).2 z0 hz0 hmax
  have hd0 : 0 ≤ R.d := by rw [← hc]; exact norm_nonneg _
  obtain ⟨B, hB⟩ : ∃ B, B = s.rSM m := ⟨_, rfl⟩
  obtain ⟨dt, hdt⟩ : ∃ dt, dt = √(1 - R.d * R.d) / R.v := ⟨_, rfl⟩
  have hk2 : 0 < cs_k2 := by norm_num [cs_k2]
  have hs : 0 < cs_k0 := by norm_num [cs_k0]
  have hS : m < m + s.dyj := by linarith
  have hin : inside ↔ R.d ≤ 0.9966 - B.ar2 := by
    rw [hB, rSM_ar2]
    have := disc_subset' (c := c) (c' := 0) (m := |cs_k2 - (cs_k0 - cs_k2) / (m + s.dyj - m) * m|) (e := 0.9966) (abs_nonneg _)
    rw [sub_zero, hc] at this
    rw [← this]
    exact ⟨fun h o ho => h o ((sees_either c o hs hk2 hpos hS).2 ho), fun h o ho => h ((sees_either c o hs hk2 hpos hS).1 ho)⟩
  have htot : tot c ↔ B.sf ≥ 1 := by rw [hB]; exact (rSM_sf s hdy c hpos).1.symm
  have hlx : R.lx = if R.d > 0.9966 - B.ar2 then (if B.sf < 1 then "A1" else "T1")
      else if B.sf ≥ 1 then
        (if (if R.d < 1 then s.rSM (moonHeight s bseM (R.jd - dt)) else s.rSM R.zc).sf > 1
            ∧ (if R.d < 1 then s.rSM (moonHeight s bseM (R.jd + dt)) else s.rSM R.zc).sf > 1 then "T"
         else if (if R.d < 1 then s.rSM (moonHeight s bseM (R.jd + dt)) else s.rSM R.zc).sf > 1 then "H3"
         else if (if R.d < 1 then s.rSM (moonHeight s bseM (R.jd - dt)) else s.rSM R.zc).sf > 1 then "H2" else "H")
      else "A" := by
    rw [feature_kind s bseM bse jd R hR, hR2, ← hdt]
    unfold RsState.kind
    simp only [ne_eq, hW, not_false_iff, if_true, if_false, ← hm, ← hB]
    by_cases h1 : R.d > 0.9966 - B.ar2
    · rw [if_pos h1, if_pos h1]
      split_ifs <;> rfl
    · rw [if_neg h1, if_neg h1]
      by_cases h2 : B.sf ≥ 1
      · rw [if_pos h2, if_pos h2]
      · rw [if_neg h2, if_neg h2]
  have har : 0 ≤ B.ar2 := by rw [hB]; exact abs_nonneg _
  refine ⟨?_, ?_, ?_, ?_⟩
  · rw [hlx, hin]
    by_cases h1 : R.d > 0.9966 - B.ar2
    · rw [if_pos h1]
      constructor
      · intro _; exact not_le.2 h1
      · intro _; split_ifs <;> simp
    · rw [if_neg h1]
      constructor
      · intro h; exfalso; split_ifs at h <;> simp at h
      · intro h; exact absurd (not_lt.1 h1) h
  · rw [hlx, htot]
    by_cases h2 : B.sf ≥ 1
    · rw [if_pos h2, if_neg (not_lt.2 h2)]
      constructor
      · intro h; exfalso; split_ifs at h <;> simp at h
      · intro h; exact absurd h2 h
    · rw [if_neg h2, if_pos (not_le.1 h2)]
      constructor
      · intro _; exact h2
      · intro _; split_ifs <;> simp
  · rw [hlx]; split_ifs <;> simp
  · intro hi ht
    rw [hin] at hi
    rw [htot] at ht
    have hd1 : R.d < 1 := by norm_num at hi; linarith
    have hvv : 0 < R.vx * R.vx + R.vy * R.vy := by
      have : R.v = √(R.vx * R.vx + R.vy * R.vy) := by rw [hR]; rfl
      rw [this] at hv
      exact sqrt_pos.1 hv
    have hv2 : R.v * R.v = R.vx * R.vx + R.vy * R.vy := by
      have : R.v = √(R.vx * R.vx + R.vy * R.vy) := by rw [hR]; rfl
      rw [this]; exact mul_self_sqrt hvv.le
    have hdt0 : 0 ≤ dt := by rw [hdt]; exact div_nonneg (sqrt_nonneg _) hv.le
    obtain ⟨t0, ht0⟩ : ∃ t0, t0 = -(b.x * R.vx + b.y * R.vy) / (R.v * R.v) := ⟨_, rfl⟩
    have hjd : R.jd = s.Zjd + t0 := by rw [ht0, hR]; rfl
    have hq : t0 * (R.vx * R.vx + R.vy * R.vy) = -(b.x * R.vx + b.y * R.vy) := by
      rw [← hv2, ht0, div_mul_cancel₀ _ (by rw [hv2]; exact hvv.ne')]
    have hn : ∀ t, ‖axis t‖ = √((b.x + R.vx * (t - s.Zjd)) ^ 2 + (b.y + R.vy * (t - s.Zjd)) ^ 2) := fun t => by
      rw [show axis t = ⟨b.x + R.vx * (t - s.Zjd), b.y + R.vy * (t - s.Zjd)⟩ from rfl, Complex.norm_def, Complex.normSq_mk]
      congr 1; ring
    have hdd : (b.x + R.vx * t0) ^ 2 + (b.y + R.vy * t0) ^ 2 = R.d ^ 2 := by
      have h1 : ‖axis R.jd‖ = R.d := e2
      rw [← h1, hn, sq_sqrt (by positivity), hjd, add_sub_cancel_left]
    have hdtv : dt ^ 2 * (R.vx * R.vx + R.vy * R.vy) = 1 - R.d * R.d := by
      rw [← hv2, hdt, div_pow, sq_sqrt (by nlinarith), sq R.v, div_mul_cancel₀ _ (by rw [hv2]; exact hvv.ne')]
    have cross : ∀ w, w ^ 2 = dt ^ 2 → ‖axis (R.jd + w)‖ = 1 := fun w hw => by
      rw [hn, hjd, show s.Zjd + t0 + w - s.Zjd = t0 + w by ring]
      have : (b.x + R.vx * (t0 + w)) ^ 2 + (b.y + R.vy * (t0 + w)) ^ 2 = 1 := by
        have : (b.x + R.vx * (t0 + w)) ^ 2 + (b.y + R.vy * (t0 + w)) ^ 2
            = ((b.x + R.vx * t0) ^ 2 + (b.y + R.vy * t0) ^ 2) + w ^ 2 * (R.vx * R.vx + R.vy * R.vy) := by linear_combination 2 * w * hq
        rw [this, hdd, hw, hdtv]; ring
      rw [this, sqrt_one]
    refine ⟨R.jd - dt, R.jd + dt, by linarith, by linarith, ?_, cross dt rfl, ?_⟩
    · have := cross (-dt) (by ring)
      rwa [← sub_eq_add_neg] at this
    · intro p2 p3 start finish
      have a2 : (s.rSM (moonHeight s bseM (R.jd - dt))).sf > 1 ↔ ¬ start := by
        rw [gt_iff_lt, ← not_le]; exact not_congr (rSM_sf s hdy c p2).2
      have a3 : (s.rSM (moonHeight s bseM (R.jd + dt))).sf > 1 ↔ ¬ finish := by
        rw [gt_iff_lt, ← not_le]; exact not_congr (rSM_sf s hdy c p3).2
      rw [hlx, if_neg (not_lt.2 hi), if_pos ht]
      have b2 : (if R.d < 1 then s.rSM (moonHeight s bseM (R.jd - dt)) else s.rSM R.zc) = s.rSM (moonHeight s bseM (R.jd - dt)) := if_pos hd1
      have b3 : (if R.d < 1 then s.rSM (moonHeight s bseM (R.jd + dt)) else s.rSM R.zc) = s.rSM (moonHeight s bseM (R.jd + dt)) := if_pos hd1
      rw [b2, b3]
      by_cases x : (s.rSM (moonHeight s bseM (R.jd - dt))).sf > 1 <;> by_cases y : (s.rSM (moonHeight s bseM (R.jd + dt))).sf > 1
      · rw [if_pos ⟨x, y⟩]
        simp [a2.1 x, a3.1 y]
      · rw [if_neg (fun h => y h.2), if_neg y, if_pos x]
        simp [a2.1 x, not_not.1 (fun h => y (a3.2 h))]
      · rw [if_neg (fun h => x h.1), if_pos y]
        simp [a3.1 y, not_not.1 (fun h => x (a2.2 h))]
      · rw [if_neg (fun h => x h.1), if_neg y, if_neg x]
        simp [not_not.1 (fun h => y (a3.2 h)), not_not.1 (fun h => x (a2.2 h))]

/-! ## Labels -/

/-- **C43 (magnitude).**  When the axis misses the Earth the magnitude is the covered part of the sun's diameter for the observer in the fundamental plane at the
point of the disc of radius 0.9972 nearest to the axis: in the plane through the moon the sun is seen as a disc of radius `A` whose centre is `e` away from
the moon's (the two radii `cs_k`, `cs_k2` of the moon used for the penumbra and the umbra differ by 0.0002).  When the axis meets it, the magnitude is the
ratio of the apparent radii of moon and sun for the observer at the distance `m` from the moon. -/
theorem c43_magnitude (s : RsState) (bseM bse : ℝ → V3) (jd : ℝ) (R : Feature) (hR : R = feature s bseM bse jd) (hdy : 0 < s.dyj) :
    ((∀ z, ¬ EarthAt (bse R.jd).y R.xc R.yc z) → 0 < R.zc →
      ∀ A e : ℝ, A / R.zc = cs_k0 / (R.zc + s.dyj) → e / s.dyj = (R.d - 0.9972) / (R.zc + s.dyj) →
      R.sf = (cs_k + A - e) / (2 * A + (cs_k - cs_k2))) ∧
    (∀ z0, EarthAt (bse R.jd).y R.xc R.yc z0 → (∀ z, EarthAt (bse R.jd).y R.xc R.yc z → z ≤ z0) → ∀ m, m = R.zc - |z0| → 0 < m →
      R.sf = (cs_k2 / m) / (cs_k0 / (m + s.dyj))) := by
  have hsf : R.sf = (s.kind R.d R.zc (lineEar2 ⟨R.xc, R.yc, 2⟩ ⟨R.xc, R.yc, 0⟩ cs_ba 1 (bse R.jd)).2.2
      (lineEar2 ⟨R.xc, R.yc, 2⟩ ⟨R.xc, R.yc, 0⟩ cs_ba 1 (bse R.jd)).1.R2
      (moonHeight s bseM (R.jd - √(1 - R.d * R.d) / R.v)) (moonHeight s bseM (R.jd + √(1 - R.d * R.d) / R.v))).1 := by
    obtain ⟨b, hb⟩ : ∃ b, b = bseM s.Zjd := ⟨_, rfl⟩
    obtain ⟨t0, ht0⟩ : ∃ t0, t0 = -(b.x * R.vx + b.y * R.vy) / (R.v * R.v) := ⟨_, rfl⟩
    obtain ⟨vz, hvz⟩ : ∃ vz, vz = ((bseM (s.Zjd + 0.04)).z - (bseM (s.Zjd - 0.04)).z) / 0.04 / 2 := ⟨_, rfl⟩
    have hz8 : ((bseM (s.Zjd + 0.04)).z - (bseM (s.Zjd - 0.04)).z) / 0.08 = vz := by rw [hvz, div_div]; norm_num
    have hjd : R.jd = s.Zjd + t0 := by rw [ht0, hb, hR]; rfl
    have hh : ∀ dt, moonHeight s bseM (R.jd + dt) = (t0 + dt) * vz + b.z - 1.37 * (t0 + dt) * (t0 + dt) := fun dt => by
      unfold moonHeight
      rw [hz8, hjd, hb, show s.Zjd + t0 + dt - s.Zjd = t0 + dt by ring]
    have hm := hh (-(√(1 - R.d * R.d) / R.v))
    rw [← sub_eq_add_neg, ← sub_eq_add_neg] at hm
    rw [hm, hh, ht0, hb, hvz, hR]
    rfl
  constructor
  · intro hmiss hz A e hA he
    have hW := (ear_axis R.xc R.yc (bse R.jd)).1.2 hmiss
    rw [hsf, hW]
    have hv : ∀ a b c : ℝ, (s.kind R.d R.zc 100 a b c).1 = ((s.rSM R.zc).r1 - (R.d - 0.9972)) / ((s.rSM R.zc).r1 - (s.rSM R.zc).r2) := by
      intro a b c
      unfold RsState.kind
      simp only []
      rw [if_pos trivial]
      split_ifs <;> rfl
    rw [hv]
    have hS : 0 < R.zc + s.dyj := by linarith
    have hA' : A = cs_k0 * R.zc / (R.zc + s.dyj) := by field_simp at hA ⊢; linarith
    have he' : e = (R.d - 0.9972) * s.dyj / (R.zc + s.dyj) := by field_simp at he ⊢; linarith
    have num : (s.rSM R.zc).r1 - (R.d - 0.9972) = (cs_k + A - e) * ((R.zc + s.dyj) / s.dyj) := by
      rw [hA', he']
      simp only [RsState.rSM, RsState.tanf1]
      field_simp
      ring
    have den : (s.rSM R.zc).r1 - (s.rSM R.zc).r2 = (2 * A + (cs_k - cs_k2)) * ((R.zc + s.dyj) / s.dyj) := by
      rw [hA']
      simp only [RsState.rSM, RsState.tanf1, RsState.tanf2]
      field_simp
      ring
    rw [num, den, mul_div_mul_right _ _ (div_pos hS hdy).ne']
  · intro z0 h0 hmax m hm hpos
    have hW : (lineEar2 ⟨R.xc, R.yc, 2⟩ ⟨R.xc, R.yc, 0⟩ cs_ba 1 (bse R.jd)).2.2 ≠ 100 :=
      fun h => (ear_axis R.xc R.yc (bse R.jd)).1.1 h z0 h0
    have hR2 := (ear_axis R.xc R.yc (bse R.jd)).2 z0 h0 hmax
    rw [hsf, hR2]
    have hv : ∀ W b c : ℝ, W ≠ 100 → (s.kind R.d R.zc W |z0| b c).1 = (s.rSM m).sf := by
      intro W b c hW
      unfold RsState.kind
      simp only [if_pos hW, if_neg hW, ← hm]
      split_ifs <;> rfl
    rw [hv _ _ _ hW]
    have hk0 : (0 : ℝ) < cs_k0 := by norm_num [cs_k0]
    simp only [RsState.rSM]
    field_simp
    ring

/-- **C43 (types).**  `feature` gives one of eleven types. -/
theorem c43_feature_types (s : RsState) (bseM bse : ℝ → V3) (jd : ℝ) :
    (feature s bseM bse jd).lx ∈ ["N", "P", "T", "A", "T0", "A0", "T1", "A1", "H", "H2", "H3"] := by
  rw [feature_kind s bseM bse jd _ rfl]
  unfold RsState.kind
  simp only []
  split_ifs <;> simp

/-- **C43 (labels).**  Every type except *N* has an entry in the table of descriptions, so the lookup `lxb[r.lx]` never inserts an empty description. -/
theorem c43_labels (s : RsState) (bseM bse : ℝ → V3) (jd : ℝ) (h : (feature s bseM bse jd).lx ≠ "N") :
    ∃ l, lxb.lookup (feature s bseM bse jd).lx = some l ∧ l ≠ "" := by
  have := c43_feature_types s bseM bse jd
  generalize (feature s bseM bse jd).lx = x at *
  simp only [List.mem_cons, List.not_mem_nil, or_false] at this
  rcases this with rfl | rfl | rfl | rfl | rfl | rfl | rfl | rfl | rfl | rfl | rfl
  · exact absurd rfl h
  all_goals exact ⟨_, rfl, by decide⟩

/-- the description of a mixed eclipse: 环 (ring) or 全 (total) at the start, in the middle and at the end -/
def mixedLabel (start middle finish : Bool) : String :=
  let w := fun ring : Bool => if ring then '环' else '全'
  String.ofList [w start, w middle, w finish]

/-- **C43 (labels of the mixed types).**  By `c43_feature_central` and `c43_quick_mixed` *H2* has a ring at the end only, *H3* at the start only and *H* at both ends, and all three are total
in the middle.  The table describes *H2* and *H3* so, but *H* as 全环全 — total at both ends with a ring in the middle; and *A1*, for which a ring is seen, is
described with 全食 (total). -/
theorem c43_mixed_labels :
    lxb.lookup "H2" = some (mixedLabel false false true) ∧ lxb.lookup "H3" = some (mixedLabel true false false)
    ∧ lxb.lookup "H" ≠ some (mixedLabel true false true) ∧ lxb.lookup "H" = some (mixedLabel false true false)
    ∧ lxb.lookup "A1" = some "部分伪本影有中心全食" := by
  refine ⟨by decide, by decide, by decide, by decide, rfl⟩

/-! ## The search -/

/-- the eclipses met by the search: from each new moon to the next, 29.5306 days later, taking the quick result when it is certain and the full computation otherwise -/
noncomputable def visit (fast : ℝ → EcFast) (full : ℝ → ℝ × ℝ × String) : ℕ → ℝ → List (ℝ × String)
  | 0, _ => []
  | n + 1, jd =>
    let r : ℝ × String := if (fast jd).ac then ((fast jd).jd, (fast jd).lx) else ((full jd).1, (full jd).2.2)
    r :: visit fast full n (r.1 + 29.5306)

/-- the text of the results: date and type of each, a line feed after each fifth; numbering from `k` -/
noncomputable def table (date : ℝ → List Char) : ℕ → List (ℝ × String) → List Char
  | _, [] => []
  | k, r :: l => date r.1 ++ r.2.toList ++ (if (k + 1) % 5 = 0 then ['\n'] else []) ++ table date (k + 1) l

theorem search_inv (fast : ℝ → EcFast) (full : ℝ → ℝ × ℝ × String) (date : ℝ → List Char) (hNN : ∀ t, (fast t).lx ≠ "NN") :
    ∀ (n : ℕ) (q : Search), ((searchStep fast full date)^[n] q).s2 ++ ((searchStep fast full date)^[n] q).s
      = q.s2 ++ q.s ++ table date q.k ((visit fast full n q.jd).filter (fun r => r.2 ≠ "N"))
  | 0, q => by simp [visit, table]
  | n + 1, q => by
    rw [Function.iterate_succ_apply, search_inv fast full date hNN n]
    obtain ⟨r, hr⟩ : ∃ r : ℝ × String, r = if (fast q.jd).ac then ((fast q.jd).jd, (fast q.jd).lx) else ((full q.jd).1, (full q.jd).2.2) := ⟨_, rfl⟩
    have hv : visit fast full (n + 1) q.jd = r :: visit fast full n (r.1 + 29.5306) := by rw [hr]; rfl
    rw [hv]
    have hq : searchStep fast full date q =
        { (if r.2 ≠ "N" then
            (if (q.k + 1) % 100 = 0 then
              { q with k := q.k + 1, s := [], s2 := q.s2 ++ (if (q.k + 1) % 5 = 0 then q.s ++ date r.1 ++ r.2.toList ++ ['\n'] else q.s ++ date r.1 ++ r.2.toList) }
             else { q with k := q.k + 1, s := (if (q.k + 1) % 5 = 0 then q.s ++ date r.1 ++ r.2.toList ++ ['\n'] else q.s ++ date r.1 ++ r.2.toList) })
           else q : Search) with jd := r.1 + 29.5306 } := by
      unfold searchStep
      simp only []
      rw [if_neg (hNN q.jd), hr]
      by_cases ha : (fast q.jd).ac = true
      · rw [if_pos ha, if_pos ha]
      · rw [if_neg ha, if_neg ha]
    rw [hq]
    by_cases h1 : r.2 = "N"
    · rw [if_neg (by simpa using h1), List.filter_cons_of_neg (by simpa using h1)]
    · rw [if_pos h1, List.filter_cons_of_pos (by simpa using h1)]
      by_cases h2 : (q.k + 1) % 100 = 0 <;> by_cases h3 : (q.k + 1) % 5 = 0 <;> simp [h2, h3, table]

/-- **C43 (search).**  `rs_search` lists, in order, the eclipses among the `n` new moons it visits — those whose type is not *N* — each with date and type, five to a line; the full
computation is used exactly for the new moons the quick one is uncertain about; nothing is skipped (the branch for the type *NN* is never taken, because the quick
classification never gives it). -/
theorem c43_search (i : ℝ → EcIn) (full : ℝ → ℝ × ℝ × String) (date : ℝ → List Char) (n : ℕ) (jd : ℝ) :
    rsSearch (fun t => ecFast (i t)) full date n jd
      = table date 0 ((visit (fun t => ecFast (i t)) full n jd).filter (fun r => r.2 ≠ "N"))
    ∧ (visit (fun t => ecFast (i t)) full n jd).length = n := by
  constructor
  · have := search_inv (fun t => ecFast (i t)) full date (fun t h => ?_) n ⟨jd, 0, [], []⟩
    · simpa [rsSearch] using this
    · have := c43_quick_types (i t)
      rw [show (ecFast (i t)).lx = "NN" from h] at this
      simp at this
  · induction n generalizing jd with
    | zero => rfl
    | succ n ih => simp [visit, ih]

/-! ## Instances of the hypotheses -/

/-- a central eclipse: γ = 0, the moon at 57, the sun at 23500 Earth radii: total -/
example : (ecFast ⟨0, 0, 0, 0, 57, 23500, 1, 0, 0⟩).lx = "T" := by
  rw [ecFast_lx _ (by norm_num)]
  have hg : (⟨0, 0, 0, 0, 57, 23500, 1, 0, 0⟩ : EcIn).gm = 0 := by simp [EcIn.gm]
  have hr : (⟨0, 0, 0, 0, 57, 23500, 1, 0, 0⟩ : EcIn).r1 > 0 := by norm_num [EcIn.r1, EcIn.f1, kMoon, kSun]
  have hr2 : |(⟨0, 0, 0, 0, 57, 23500, 1, 0, 0⟩ : EcIn).r2| < 0.9 := by
    rw [abs_lt]; constructor <;> norm_num [EcIn.r2, EcIn.f2, kMoon, kSun]
  have h0 := abs_nonneg (⟨0, 0, 0, 0, 57, 23500, 1, 0, 0⟩ : EcIn).r2
  have hh : (⟨0, 0, 0, 0, 57, 23500, 1, 0, 0⟩ : EcIn).h = 1 := by
    unfold EcIn.h; rw [hg]; norm_num
  have hf : (⟨0, 0, 0, 0, 57, 23500, 1, 0, 0⟩ : EcIn).fh2 < 0 := by norm_num [EcIn.fh2, EcIn.f2, kMoon, kSun]
  have hf2 : ¬ |(⟨0, 0, 0, 0, 57, 23500, 1, 0, 0⟩ : EcIn).fh2| < 1 := by
    rw [abs_of_neg hf]; norm_num [EcIn.fh2, EcIn.f2, kMoon, kSun]
  rw [hg, abs_zero, if_neg (by intro; linarith), if_neg (by intro; linarith), if_neg (by norm_num), if_neg (by intro; linarith)]
  unfold EcIn.inner
  simp only [hh]
  rw [if_neg hf2, if_pos (by linarith)]

/-- this eclipse is marked as certain, as `c43_certain` requires -/
example : (ecFast ⟨0, 0, 0, 0, 57, 23500, 1, 0, 0⟩).ac = true := by
  have hg : (⟨0, 0, 0, 0, 57, 23500, 1, 0, 0⟩ : EcIn).gm = 0 := by simp [EcIn.gm]
  have hr : (⟨0, 0, 0, 0, 57, 23500, 1, 0, 0⟩ : EcIn).r1 > 0 := by norm_num [EcIn.r1, EcIn.f1, kMoon, kSun]
  have hr2 : |(⟨0, 0, 0, 0, 57, 23500, 1, 0, 0⟩ : EcIn).r2| < 0.9 := by
    rw [abs_lt]; constructor <;> norm_num [EcIn.r2, EcIn.f2, kMoon, kSun]
  have h0 := abs_nonneg (⟨0, 0, 0, 0, 57, 23500, 1, 0, 0⟩ : EcIn).r2
  have hh : (⟨0, 0, 0, 0, 57, 23500, 1, 0, 0⟩ : EcIn).h = 1 := by
    unfold EcIn.h; rw [hg]; norm_num
  have hf : (⟨0, 0, 0, 0, 57, 23500, 1, 0, 0⟩ : EcIn).fh2 < 0 := by norm_num [EcIn.fh2, EcIn.f2, kMoon, kSun]
  have hf2 : ¬ |(⟨0, 0, 0, 0, 57, 23500, 1, 0, 0⟩ : EcIn).fh2| < 1 := by
    rw [abs_of_neg hf]; norm_num [EcIn.fh2, EcIn.f2, kMoon, kSun]
  unfold ecFast
  rw [if_neg (by norm_num)]
  simp only []
  rw [hg, hh, abs_zero, if_neg (by intro; linarith), if_neg (by intro; linarith), if_neg (by norm_num), if_neg (by intro; linarith), if_neg hf2]
  simp only []
  rw [if_neg (by rw [abs_of_neg (by linarith)]; linarith), if_neg (by rw [abs_of_neg (by linarith)]; linarith), if_neg (by rw [abs_of_neg (by linarith)]; linarith),
    if_neg (by rw [abs_of_neg (by linarith)]; linarith), if_neg (by rw [abs_of_neg (by linarith)]; linarith)]

/-- nobody sees anything when the axis passes at three Earth radii -/
example : SeesEclipse 3 kSun kMoon 57 23500 3 ∧ ¬ SeesEclipse 3 kSun kMoon 57 23500 0 := by
  have hk : 0 < kMoon := by norm_num [kMoon]
  have hs : 0 < kSun := by norm_num [kSun]
  rw [sees_eclipse 3 3 hs hk (by norm_num) (by norm_num), sees_eclipse 3 0 hs hk (by norm_num) (by norm_num)]
  norm_num [kMoon, kSun]

/-- the shadow moving along the x axis over the Earth's centre: the axis meets the Earth, at height 1 at the most when the Earth's axis is not tilted towards it -/
example : EarthAt (π / 2) 0 0 1 ∧ (feature ⟨0, 23500⟩ (fun t => ⟨t, 0, 57⟩) (fun _ => ⟨0, π / 2, 0⟩) 0).xc = 0
    ∧ (feature ⟨0, 23500⟩ (fun t => ⟨t, 0, 57⟩) (fun _ => ⟨0, π / 2, 0⟩) 0).v = 1 := by
  refine ⟨by norm_num [EarthAt, OnEll, rotX], by norm_num [feature], by norm_num [feature]⟩

end Verif.Geom
