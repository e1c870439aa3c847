import Verif.Props.YearTextParts
import Verif.Props.LunarMean

/-!
# C63: the text of a year
-/

namespace Verif.Lunar
open Verif.Fp Verif.Cal Verif.GanZhi Verif.Ssq

theorem foldl_app (l : List String) : ∀ a b : String, l.foldl (· ++ ·) (a ++ b) = a ++ l.foldl (· ++ ·) b := by
  induction l with
  | nil => intro a b; rfl
  | cons x t ih => intro a b; simp only [List.foldl_cons]; rw [String.append_assoc, ih]

theorem join_nil : String.join [] = "" := rfl

theorem join_cons (x : String) (l : List String) : String.join (x :: l) = x ++ String.join l := by
  unfold String.join
  simp only [List.foldl_cons]
  rw [String.empty_append, ← foldl_app, String.append_empty]

theorem join_filter {α : Type} (e : α → String) (P : α → Bool) (l : List α) (h : ∀ x ∈ l, P x = false → e x = "") :
    String.join (l.map e) = String.join ((l.filter P).map e) := by
  induction l with
  | nil => rfl
  | cons x t ih =>
    have ih := ih (fun y hy => h y (List.mem_cons_of_mem _ hy))
    by_cases hp : P x = true
    · rw [List.filter_cons_of_pos hp, List.map_cons, List.map_cons, join_cons, join_cons, ih]
    · have hp : P x = false := by simpa using hp
      rw [List.filter_cons_of_neg (by simp [hp]), List.map_cons, join_cons, h x (by simp) hp, String.empty_append, ih]

/-- the names the program gives to months -/
def monthNames : List String := ["十一","腊","正","二","三","四","五","六","七","八","九","十","一","拾贰","十三","后九"]

theorem names_bytes : ∀ s ∈ monthNames, s.utf8ByteSize = 3 * s.length ∧ 1 ≤ s.length ∧ s.length ≤ 2 := by decide

theorem usual_mem (v : ℕ) : usualName v ∈ monthNames := by
  have : ∀ k : Fin 12, usualName k.val ∈ monthNames := by decide
  have h := this ⟨v % 12, Nat.mod_lt _ (by norm_num)⟩
  have e : usualName (v % 12) = usualName v := by unfold usualName; rw [Nat.mod_mod]
  rw [← e]; exact h

theorem nameRule_mem (Dm : ℤ) (v : ℕ) : nameRule Dm v ∈ monthNames := by
  unfold nameRule
  split_ifs
  · decide
  · exact usual_mem _
  · exact usual_mem _
  · decide
  · decide
  · exact usual_mem _
  · exact usual_mem _

theorem ancient_mem (yy : ℤ) (i : ℕ) : ancientMonth yy i ∈ monthNames := by
  unfold ancientMonth
  by_cases h : i < 12
  · rw [if_pos h]; exact usual_mem _
  · rw [if_neg h]
    split_ifs <;> decide

/-- the month name, followed by 月 if it has one character -/
theorem name_text (b : Prop) [Decidable b] (nm : String) (h : nm ∈ monthNames) (s : String) (hs : s = (if b then "闰" else "  ") ++ nm) :
    (if s.utf8ByteSize < 6 ∨ (s.utf8ByteSize < 9 ∧ b) then s ++ "月" else s) = s ++ (if nm.length = 1 then "月" else "") := by
  obtain ⟨h1, h2, h3⟩ := names_bytes nm h
  have hb : s.utf8ByteSize = (if b then 3 else 2) + 3 * nm.length := by
    rw [hs, String.utf8ByteSize_append, h1]
    by_cases hb : b
    · rw [if_pos hb, if_pos hb]; rfl
    · rw [if_neg hb, if_neg hb]; rfl
  rw [hb]
  by_cases hl : nm.length = 1
  · rw [if_pos hl, hl]
    by_cases hb : b
    · rw [if_pos (by rw [if_pos hb]; exact Or.inr ⟨by norm_num, hb⟩)]
    · rw [if_pos (by rw [if_neg hb]; exact Or.inl (by norm_num))]
  · have hl2 : nm.length = 2 := by omega
    rw [if_neg hl, hl2, String.append_empty]
    by_cases hb : b
    · rw [if_neg (by rw [if_pos hb]; norm_num)]
    · rw [if_neg (by rw [if_neg hb]; rintro (h | ⟨_, h⟩); exacts [by omega, hb h])]

/-- the two extra terms -/
theorem yearFrom_pe (ssq : Calc) (m1 m2 : ℤ) (Q : ℤ → ℤ) (hT : TermsOK ssq m1 m2 Q) (W : ℚ) (n : ℤ) (hn : InR m1 m2 n) (hW : Near W n) (t : Tables)
    (h : yearFrom ssq W = some t) : t.pe = [Q (24 * n - 1), Q (24 * n - 2)] := by
  obtain ⟨a1, a2, a3⟩ := terms_eq ssq m1 m2 Q hT W n hn hW
  unfold yearFrom at h
  rw [a1, a2, a3, Option.bind_eq_bind, Option.bind_some, Option.bind_eq_bind, Option.bind_some, Option.bind_eq_bind, Option.bind_some] at h
  obtain ⟨A0, -, h⟩ := Option.bind_eq_some_iff.mp h
  obtain ⟨B, -, h⟩ := Option.bind_eq_some_iff.mp h
  obtain ⟨dx, -, h⟩ := Option.bind_eq_some_iff.mp h
  obtain ⟨YY, -, h⟩ := Option.bind_eq_some_iff.mp h
  split_ifs at h
  · obtain ⟨ns, -, h⟩ := Option.bind_eq_some_iff.mp h
    obtain ⟨ym, -, h⟩ := Option.bind_eq_some_iff.mp h
    simp only [Option.pure_def, Option.some.injEq] at h
    rw [← h]
  · obtain ⟨ns, -, h⟩ := Option.bind_eq_some_iff.mp h
    obtain ⟨ym, -, h⟩ := Option.bind_eq_some_iff.mp h
    simp only [Option.pure_def, Option.some.injEq] at h
    rw [← h]

section
variable {ssq : Calc} {m1 m2 j1 j2 : ℤ} {Q Mn : ℤ → ℤ}

theorem TermsNear.mono (hN : TermsNear Q m1 m2) {i j : ℤ} (h1 : m1 ≤ i) (hij : i ≤ j) (h2 : j ≤ m2) : Q i ≤ Q j := by
  obtain ⟨n, hn⟩ : ∃ n : ℕ, j = i + n := ⟨(j - i).toNat, by omega⟩
  subst hn
  clear hij
  induction n with
  | zero => simp
  | succ n ih =>
    have := ih (by push_cast at h2; omega)
    have s := hN.1 (i + n) (by omega) (by push_cast at h2; omega)
    push_cast
    rw [← add_assoc]
    omega

/-- the day for which the tables are computed is in the solstice year that ends in the year asked for -/
theorem yearDay_eq (y : ℤ) (hy : -10000 ≤ y ∧ y ≤ 20000) : ∃ d, yearDay y = some d ∧ |(d : ℚ) - (3652422/10000 * ((y : ℚ) - 2000) + 180)| ≤ 2 := by
  have y1 : (-10000 : ℚ) ≤ y := by exact_mod_cast hy.1
  have y2 : (y : ℚ) ≤ 20000 := by exact_mod_cast hy.2
  have hsub : ((y : ℚ) ⊟ 2000) = (y : ℚ) - 2000 := by
    unfold fsub
    have := rnd_intCast (y - 2000) (by rw [abs_le]; constructor <;> omega)
    push_cast at this; exact this
  obtain ⟨u, hu⟩ : ∃ u : ℚ, u = (y : ℚ) - 2000 := ⟨_, rfl⟩
  have ub : |u| ≤ 18000 := by rw [abs_le]; constructor <;> linarith
  have ub' := abs_le.mp ub
  obtain ⟨C, hC⟩ : ∃ C, C = cYear := ⟨_, rfl⟩
  have tC := cYear_tight
  rw [← hC] at tC
  have hp : |u * (C - 3652422/10000)| ≤ 1/1000 := by
    rw [abs_mul]
    calc |u| * |C - 3652422/10000| ≤ 18000 * (1/1000000000000) := mul_le_mul ub tC (abs_nonneg _) (by norm_num)
      _ ≤ 1/1000 := by norm_num
  have hp := abs_le.mp hp
  obtain ⟨p, hpd⟩ : ∃ p, p = rnd (u * C) := ⟨_, rfl⟩
  have e1 := abs_le.mp (rnd_err1 (show |u * C| ≤ 7000000 by rw [abs_le]; constructor <;> linarith) (by norm_num))
  rw [← hpd] at e1
  obtain ⟨q, hqd⟩ : ∃ q, q = rnd (p + 180) := ⟨_, rfl⟩
  have e2 := abs_le.mp (rnd_err1 (show |p + 180| ≤ 8000000 by rw [abs_le]; constructor <;> linarith) (by norm_num))
  rw [← hqd] at e2
  have f1 := Int.floor_le q
  have f2 := Int.lt_floor_add_one q
  refine ⟨⌊q⌋, ?_, ?_⟩
  · unfold yearDay
    rw [hsub, ← hu, ← hC]
    show int2 (rnd (rnd (u * C) + 180)) = _
    rw [← hpd, ← hqd]
    refine int2_eq rfl ?_ ?_
    · have : (-10000001 : ℚ) < ⌊q⌋ := by linarith [e2.1]
      have : (-10000001 : ℤ) < ⌊q⌋ := by exact_mod_cast this
      omega
    · have : (⌊q⌋ : ℚ) < 10000001 := by linarith [e2.2]
      have : ⌊q⌋ < (10000001 : ℤ) := by exact_mod_cast this
      omega
  · rw [← hu, abs_le]; constructor <;> linarith

/-- the entries of one pass of the loop over the terms -/
theorem termPart_ok {so qi : ℚ → ℚ} {c : ℤ} (hE : SkyOK so qi Q Mn m1 m2 j1 j2 c) (hT : TermsOK ssq m1 m2 Q) (t : Tables) (N : ℤ) (hR : InR m1 m2 N)
    (hzq : t.ZQ = tab 25 (zOf Q N)) (hpe : t.pe = [Q (24 * N - 1), Q (24 * N - 2)]) (h0 h1 : ℤ) (hh0 : -2400000 ≤ h0) (hh1 : h1 ≤ 4000000) (j : ℕ) (hj : j < 26) :
    ∃ e, termPart qi t h0 h1 j = some e ∧ ((h0 ≤ Q (24 * N - 2 + j) ∧ Q (24 * N - 2 + j) < h1) → TermEntry qi Q (24 * N - 2 + j) e) ∧
      (¬ (h0 ≤ Q (24 * N - 2 + j) ∧ Q (24 * N - 2 + j) < h1) → e = "") := by
  have hb := hR.bounds
  obtain ⟨m, hm⟩ : ∃ m, m = 24 * N - 2 + (j : ℤ) := ⟨_, rfl⟩
  rw [← hm]
  have hq : termOf t j = some (Q m) := by
    unfold termOf
    by_cases j0 : j = 0
    · rw [if_pos j0, hpe, hm, j0]; simp
    · by_cases j1 : j = 1
      · rw [if_neg j0, if_pos j1, hpe, hm, j1]; simp; congr 1; ring
      · rw [if_neg j0, if_neg j1, hzq, tab_get 25 _ (j - 2) (by omega)]
        unfold zOf
        congr 2; omega
  unfold termPart
  by_cases hin : h0 ≤ Q m ∧ Q m < h1
  · have hnm : ∃ nm, strJqmc[(j + 22) % 24]? = some nm ∧ strJqmc[(m % 24).toNat]? = some nm := by
      have e : (m % 24).toNat = (j + 22) % 24 := by omega
      have hl : (j + 22) % 24 < strJqmc.length := by
        rw [show strJqmc.length = 24 from rfl]; exact Nat.mod_lt _ (by norm_num)
      rw [e]
      exact ⟨_, List.getElem?_eq_getElem hl, List.getElem?_eq_getElem hl⟩
    obtain ⟨nm, n1, n2⟩ := hnm
    obtain ⟨D, d1, d2⟩ := dayPart_ok (Q m) (by omega) (by omega)
    obtain ⟨w, w1, w2⟩ := sky_term hE m (by omega) (by omega) (by rw [abs_le]; constructor <;> omega) (hT m (by omega) (by omega)).1
    have hw := abs_le.mp (hE.term m (by omega) (by omega) w w2)
    have q1 : (-2400000 : ℚ) ≤ Q m := by exact_mod_cast (by omega : (-2400000 : ℤ) ≤ Q m)
    have q2 : (Q m : ℚ) ≤ 4000000 := by exact_mod_cast (by omega : Q m ≤ (4000000 : ℤ))
    obtain ⟨M, M1, M2⟩ := momentPart_ok (qi w) (Q m) (by linarith) (by linarith)
    refine ⟨"  " ++ (nm ++ D) ++ M, ?_, ?_, fun h => absurd hin h⟩
    · refine bind_ok hq ?_
      rw [if_neg (by omega)]
      refine bind_ok n1 ?_
      refine bind_ok d1 ?_
      rw [w1]
      refine bind_ok M1 ?_
      rfl
    · intro _
      exact ⟨nm, D, M, w, n2, d2, w2, M2, by simp only [String.append_assoc]⟩
  · refine ⟨"", ?_, fun h => absurd h hin, fun _ => rfl⟩
    refine bind_ok hq ?_
    rw [if_pos (by omega)]
    rfl

/-- the line of a month -/
theorem line_ok {so qi : ℚ → ℚ} {c : ℤ} (hE : SkyOK so qi Q Mn m1 m2 j1 j2 c) (hT : TermsOK ssq m1 m2 Q) (hN : TermsNear Q m1 m2) (hM : MoonsOK ssq j1 j2 Mn)
    {d N a : ℤ} {k : ℕ} (h : At Q Mn m1 m2 j1 j2 d N a k) (t : Tables) (l : ℕ) (nm : ℕ → String) (ht : YearTables t (zOf Q N) (hOf Mn a) l nm)
    (hpe : t.pe = [Q (24 * N - 1), Q (24 * N - 2)]) (hnm : ∀ i, i < 14 → nm i ∈ monthNames) (hlo : -2400000 ≤ Mn a) (hhi : Mn (a + 14) ≤ 4000000)
    (i : ℕ) (hi : i < 14) (hlast : Mn (a + i + 1) ≤ Q (24 * N + 24)) : ∃ s, monthLine so qi t i = some s ∧ LineOK so qi Q Mn m1 m2 c a l nm i s := by
  have hj := h.ja
  have hb := h.inR.bounds
  have mon : ∀ u v : ℤ, j1 ≤ u → u ≤ v → v ≤ j2 → Mn u ≤ Mn v := by
    intro u v h1 h2 h3
    rcases eq_or_lt_of_le h2 with e | e
    · rw [e]
    · exact (hM.mono h1 e h3).le
  have g1 := mon a (a + i) (by omega) (by omega) (by omega)
  have g2 := mon (a + i + 1) (a + 14) (by omega) (by omega) (by omega)
  have g3 := mon (a + i) (a + i + 1) (by omega) (by omega) (by omega)
  have hlen := hM.months (a + i) (a + i + 1) (by omega) (by omega) (by omega) (by omega)
  have hlen0 := hM.months a (a + 1) (by omega) (by omega) (by omega) (by omega)
  obtain ⟨D, d1, d2⟩ := dayPart_ok (Mn (a + i)) (by omega) (by omega)
  obtain ⟨w, w1, w2⟩ := sky_moon hE (a + i) (by omega) (by omega) (by rw [abs_le]; constructor <;> omega)
  have hw := abs_le.mp (hE.moon (a + i) (by omega) (by omega) w w2)
  have q1 : (-2400000 : ℚ) ≤ Mn (a + i) := by exact_mod_cast (by omega : (-2400000 : ℤ) ≤ Mn (a + i))
  have q2 : (Mn (a + i) : ℚ) ≤ 4000000 := by exact_mod_cast (by omega : Mn (a + i) ≤ (4000000 : ℤ))
  obtain ⟨M, M1, M2⟩ := momentPart_ok (so w) (Mn (a + i)) (by linarith) (by linarith)
  have hh0 : hOf Mn a i = Mn (a + i) := rfl
  have hh1 : hOf Mn a (i + 1) = Mn (a + i + 1) := by unfold hOf; push_cast; rw [add_assoc]
  have key := fun (j : ℕ) (hj : j < 26) => termPart_ok hE hT t N h.inR ht.zq hpe (Mn (a + i)) (Mn (a + i + 1)) (by omega) (by omega) j hj
  obtain ⟨e, he⟩ : ∃ e : ℕ → String, e = fun j => (termPart qi t (Mn (a + i)) (Mn (a + i + 1)) j).getD "" := ⟨_, rfl⟩
  have hall : ∀ j, j < 26 → termPart qi t (Mn (a + i)) (Mn (a + i + 1)) j = some (e j) := by
    intro j hj
    obtain ⟨x, hx, -⟩ := key j hj
    simp only [he, hx, Option.getD_some]
  have hmap : (List.range 26).mapM (fun (j : ℕ) => termPart qi t (Mn (a + i)) (Mn (a + i + 1)) j) = some ((List.range 26).map e) :=
    Cal.mapM_some _ _ _ (fun j hj => hall j (by simpa using hj))
  obtain ⟨P, hP⟩ : ∃ P : ℕ → Bool, P = fun (j : ℕ) => decide (Mn (a + i) ≤ Q (24 * N - 2 + j) ∧ Q (24 * N - 2 + j) < Mn (a + i + 1)) := ⟨_, rfl⟩
  have hPt : ∀ j : ℕ, P j = true ↔ (Mn (a + i) ≤ Q (24 * N - 2 + j) ∧ Q (24 * N - 2 + j) < Mn (a + i + 1)) := by
    intro j; rw [hP]; exact decide_eq_true_iff
  refine ⟨(if l ≠ 0 ∧ i = l then "闰" else "  ") ++ nm i ++ (if (nm i).length = 1 then "月" else "") ++ (if Mn (a + i + 1) - Mn (a + i) = 30 then "大" else "小") ++ " " ++ D ++ M ++
      String.join (((List.range 26).filter P).map e) ++ "\n", ?_, D, M, w, ((List.range 26).filter P).map (fun (j : ℕ) => 24 * N - 2 + j), ((List.range 26).filter P).map e, d2, w2, M2, ?_, ?_, ?_, rfl⟩
  rotate_left
  · refine List.Pairwise.map _ ?_ (List.Pairwise.filter _ List.pairwise_lt_range)
    intro x y hxy
    omega
  · intro m
    rw [List.mem_map]
    constructor
    · rintro ⟨j, hjm, rfl⟩
      obtain ⟨x1, x2⟩ := List.mem_filter.mp hjm
      have x1 : j < 26 := by simpa using x1
      exact ⟨⟨by omega, by omega⟩, (hPt j).mp x2⟩
    · rintro ⟨⟨m1', m2'⟩, in1, in2⟩
      have lo : 24 * N - 2 ≤ m := by
        by_contra hc
        have b1 := TermsNear.mono hN (i := m) (j := 24 * N - 3) m1' (by omega) (by omega)
        have b2 := abs_le.mp (hN.2 (24 * N - 3) (24 * N) (by omega) (by omega) (by omega) (by omega))
        have b3 : ((Q (24 * N) - Q (24 * N - 3) : ℤ) : ℚ) > 38 := by
          have : ((24 * N - (24 * N - 3) : ℤ) : ℚ) = 3 := by push_cast; ring
          rw [this] at b2
          linarith [b2.1]
        have b3 : Q (24 * N) - Q (24 * N - 3) > 38 := by exact_mod_cast b3
        have f := h.first
        omega
      have hi' : m ≤ 24 * N + 23 := by
        by_contra hc
        have b1 := TermsNear.mono hN (i := 24 * N + 24) (j := m) (by omega) (by omega) m2'
        omega
      refine ⟨(m - 24 * N + 2).toNat, ?_, by omega⟩
      rw [List.mem_filter]
      refine ⟨by simp; omega, (hPt _).mpr ?_⟩
      rw [show 24 * N - 2 + (((m - 24 * N + 2).toNat : ℕ) : ℤ) = m by omega]
      exact ⟨in1, in2⟩
  · rw [List.forall₂_map_left_iff, List.forall₂_map_right_iff, List.forall₂_same]
    intro j hjm
    obtain ⟨x1, x2⟩ := List.mem_filter.mp hjm
    have x1 : j < 26 := by simpa using x1
    obtain ⟨x, hx, hx2, -⟩ := key j x1
    have : e j = x := by simp only [he, hx, Option.getD_some]
    rw [this]
    exact hx2 ((hPt j).mp x2)
  · have hdx : t.dx[i]? = some (Mn (a + i + 1) - Mn (a + i)) := by
      rw [ht.dx, tab_get 14 _ i hi, hh1, hh0]
    have hym : t.ym[i]? = some (nm i) := by
      rw [ht.ym, List.getElem?_map, List.getElem?_range hi]; rfl
    unfold monthLine
    refine bind_ok (x := Mn (a + i)) (by rw [ht.hs, tab_get 15 _ i (by omega), hh0]) ?_
    refine bind_ok (x := Mn (a + i + 1)) (by rw [ht.hs, tab_get 15 _ (i + 1) (by omega), hh1]) ?_
    refine bind_ok hym ?_
    refine bind_ok hdx ?_
    refine bind_ok d1 ?_
    rw [w1]
    refine bind_ok M1 ?_
    refine bind_ok hmap ?_
    rw [ht.leap]
    rw [name_text (l ≠ 0 ∧ i = l) (nm i) (hnm i hi) _ rfl]
    rw [join_filter e P (List.range 26) (by
      intro j hjm hp
      have x1 : j < 26 := by simpa using hjm
      obtain ⟨x, hx, -, hx2⟩ := key j x1
      have : e j = x := by simp only [he, hx, Option.getD_some]
      rw [this]
      apply hx2
      intro hc
      rw [(hPt j).mpr hc] at hp
      exact absurd hp (by simp))]
    have hl30 : (Mn (a + i + 1) - Mn (a + i) > 29) ↔ (Mn (a + i + 1) - Mn (a + i) = 30) := by omega
    simp only [hl30, String.append_assoc]
    rfl

/-- the loop over the months -/
theorem year_loop_ok {so qi : ℚ → ℚ} {c : ℤ} (hE : SkyOK so qi Q Mn m1 m2 j1 j2 c) (hT : TermsOK ssq m1 m2 Q) (hN : TermsNear Q m1 m2) (hM : MoonsOK ssq j1 j2 Mn)
    {d N a : ℤ} {k : ℕ} (h : At Q Mn m1 m2 j1 j2 d N a k) (t : Tables) (l : ℕ) (nm : ℕ → String) (ht : YearTables t (zOf Q N) (hOf Mn a) l nm)
    (hpe : t.pe = [Q (24 * N - 1), Q (24 * N - 2)]) (hnm : ∀ i, i < 14 → nm i ∈ monthNames) (hlo : -2400000 ≤ Mn a) (hhi : Mn (a + 14) ≤ 4000000)
    (K : ℕ) (hK : K ≤ 13) (hK1 : Mn (a + K) ≤ Q (24 * N + 24)) (hK2 : Q (24 * N + 24) < Mn (a + K + 1)) : ∀ (n i f : ℕ), i + n = K → n < f →
    ∃ (ls : List String), yearLoop so qi t f i = some (String.join ls) ∧ ls.length = n ∧ ∀ p (hp : p < ls.length), LineOK so qi Q Mn m1 m2 c a l nm (i + p) ls[p] := by
  have hj := h.ja
  intro n
  induction n with
  | zero =>
    intro i f hi hf
    obtain ⟨f, rfl⟩ : ∃ g, f = g + 1 := ⟨f - 1, by omega⟩
    have hi : i = K := by omega
    subst hi
    refine ⟨[], ?_, rfl, ?_⟩
    · unfold yearLoop
      refine bind_ok (x := Mn (a + i + 1)) (by rw [ht.hs, tab_get 15 _ (i + 1) (by omega)]; unfold hOf; push_cast; rw [add_assoc]) ?_
      refine bind_ok (x := Q (24 * N + 24)) (by rw [ht.zq, tab_get 25 _ 24 (by omega)]; rfl) ?_
      rw [if_pos hK2]
      rfl
    · intro p hp; simp at hp
  | succ n ih =>
    intro i f hi hf
    obtain ⟨f, rfl⟩ : ∃ g, f = g + 1 := ⟨f - 1, by omega⟩
    have hle : Mn (a + i + 1) ≤ Mn (a + K) := by
      rcases eq_or_lt_of_le (show a + i + 1 ≤ a + (K : ℤ) by omega) with e | e
      · rw [e]
      · exact (hM.mono (by omega) e (by omega)).le
    obtain ⟨s, s1, s2⟩ := line_ok hE hT hN hM h t l nm ht hpe hnm hlo hhi i (by omega) (by omega)
    obtain ⟨ls, l1, l2, l3⟩ := ih (i + 1) f (by omega) (by omega)
    refine ⟨s :: ls, ?_, by simp [l2], ?_⟩
    · unfold yearLoop
      refine bind_ok (x := Mn (a + i + 1)) (by rw [ht.hs, tab_get 15 _ (i + 1) (by omega)]; unfold hOf; push_cast; rw [add_assoc]) ?_
      refine bind_ok (x := Q (24 * N + 24)) (by rw [ht.zq, tab_get 25 _ 24 (by omega)]; rfl) ?_
      rw [if_neg (by omega)]
      refine bind_ok s1 ?_
      refine bind_ok l1 ?_
      rw [join_cons]
      rfl
    · intro p hp
      rcases p with _ | p
      · simpa using s2
      · have := l3 p (by simpa using hp)
        rw [show i + (p + 1) = i + 1 + p by omega]
        simpa using this

/-- the text of a year, with any naming -/
theorem year_text {so qi : ℚ → ℚ} {c lo hi : ℤ} (hr : Range Q Mn m1 m2 j1 j2 lo hi) (hE : SkyOK so qi Q Mn m1 m2 j1 j2 c) (hT : TermsOK ssq m1 m2 Q) (hN : TermsNear Q m1 m2)
    (hM : MoonsOK ssq j1 j2 Mn) {P : ℤ → Prop} {L : ℤ → ℤ → ℕ} {NM : ℤ → ℤ → ℕ → String} (hnm : Naming ssq m1 m2 j1 j2 Q Mn P L NM)
    (rule : ℤ → ℤ → ℕ → (ℕ → String) → Prop) (hrule : ∀ {d N a : ℤ} {k : ℕ}, P d → At Q Mn m1 m2 j1 j2 d N a k → rule N a (L N a) (NM N a))
    (hnames : ∀ N a i, NM N a i ∈ monthNames)
    (y : ℤ) (hy : -4500 ≤ y) (h1 : (lo : ℚ) ≤ 3652422/10000 * ((y : ℚ) - 2000) + 178) (h2 : 3652422/10000 * ((y : ℚ) - 2000) + 182 ≤ (hi : ℚ))
    (hP : ∀ d : ℤ, |(d : ℚ) - (3652422/10000 * ((y : ℚ) - 2000) + 180)| ≤ 2 → P d) :
    ∃ s t, yearText ssq so qi y = some (s, t) ∧ YearTextOK so qi Q Mn m1 m2 c rule y s := by
  have hb := hr.big
  have hbq : (hi : ℚ) ≤ 3500000 := by exact_mod_cast hb.2
  have hyq : (-4500 : ℚ) ≤ y := by exact_mod_cast hy
  have hy2 : (y : ℚ) ≤ 12000 := by linarith
  have hy2 : y ≤ 12000 := by exact_mod_cast hy2
  obtain ⟨d, d1, d2⟩ := yearDay_eq y ⟨by omega, by omega⟩
  have d3 := abs_le.mp d2
  have dlo : lo ≤ d := by
    have : (lo : ℚ) ≤ d := by linarith
    exact_mod_cast this
  have dhi : d ≤ hi := by
    have : (d : ℚ) ≤ hi := by linarith
    exact_mod_cast this
  obtain ⟨N, a, k, W, hat, hW, hsol, hmo⟩ := day_tables hr hT hN hM d dlo (by omega)
  obtain ⟨t, t1, t2⟩ := hnm.tables (hP d d2) hat hmo W hW
  have hpe := yearFrom_pe ssq m1 m2 Q hT W N hat.inR hW t t1
  have hbd := hat.inR.bounds
  have hj := hat.ja
  have NY : N = y - 2001 := by
    have q0 := abs_le.mp (hT (24 * N) (by omega) (by omega)).1
    have q1 := abs_le.mp (hT (24 * (N + 1)) (by omega) (by omega)).1
    unfold meanTerm at q0 q1
    push_cast at q0 q1
    have y0 : ((Q (24 * N) : ℤ) : ℚ) ≤ d := by exact_mod_cast hat.year.1
    have y1 : ((d : ℤ) : ℚ) < Q (24 * (N + 1)) := by exact_mod_cast hat.year.2
    have a1 : (N : ℚ) - y + 2000 < 0 := by linarith
    have a2 : (y : ℚ) - 2000 - N - 1 < 1 := by linarith
    have a1 : N - y + 2000 < 0 := by exact_mod_cast a1
    have a2 : y - 2000 - N - 1 < 1 := by exact_mod_cast a2
    omega
  have dq : -2376000 ≤ d ∧ d ≤ 3500000 := by
    constructor
    · have : (-2376000 : ℚ) ≤ d := by linarith
      exact_mod_cast this
    · omega
  have first := hat.first
  have qlo : Q (24 * N) ≥ -2377000 := by
    have q0 := abs_le.mp (hT (24 * N) (by omega) (by omega)).1
    unfold meanTerm at q0
    rw [NY] at q0 ⊢
    push_cast at q0
    have : ((-2377000 : ℤ) : ℚ) ≤ Q (24 * (y - 2001)) := by push_cast; linarith
    exact_mod_cast this
  have m0 := hM.months a (a + 1) (by omega) (by omega) (by omega) (by omega)
  have m14 := hM.months a (a + 14) (by omega) (by omega) (by omega) (by omega)
  have hleap := leapRule_of hN hM hat
  have e24 : zOf Q N 24 = Q (24 * N + 24) := rfl
  obtain ⟨K, hK, hK1, hK2⟩ : ∃ K : ℕ, (K = 12 ∨ K = 13) ∧ Mn (a + K) ≤ Q (24 * N + 24) ∧ Q (24 * N + 24) < Mn (a + K + 1) := by
    rcases hleap with ⟨hin, -⟩ | ⟨hin, -⟩
    · exact ⟨12, Or.inl rfl, hin.1, by have := hin.2; unfold hOf at this; push_cast at this ⊢; rw [show a + 12 + 1 = a + (12 + 1) by ring]; exact this⟩
    · exact ⟨13, Or.inr rfl, hin.1, by have := hin.2; unfold hOf at this; push_cast at this ⊢; rw [show a + 13 + 1 = a + (13 + 1) by ring]; exact this⟩
  obtain ⟨ls, l1, l2, l3⟩ := year_loop_ok hE hT hN hM hat t _ _ t2 hpe (fun i _ => hnames N a i) (by omega) (by have := hat.year.1; omega) K (by omega) hK1 hK2 K 0 14 (by omega) (by omega)
  refine ⟨String.join ls, t, ?_, a, L N a, NM N a, K, ls, by rw [← NY]; exact first, by rw [← NY]; exact hrule (hP d d2) hat, ?_, hK, l2, ?_, rfl⟩
  · unfold yearText
    refine bind_ok d1 ?_
    refine bind_ok (show calcY ssq (d : ℚ) = some t from bind_ok hsol t1) ?_
    refine bind_ok l1 ?_
    rfl
  · rw [show 24 * (y - 2000) = 24 * N + 24 by omega]
    exact ⟨hK1, hK2⟩
  · intro i h
    have := l3 i h
    simpa using this

/-- C63: outside the years -721..-104 -/
theorem c63_year_text {so qi : ℚ → ℚ} {c lo hi : ℤ} (hr : Range Q Mn m1 m2 j1 j2 lo hi) (hE : SkyOK so qi Q Mn m1 m2 j1 j2 c) (hT : TermsOK ssq m1 m2 Q) (hN : TermsNear Q m1 m2)
    (hM : MoonsOK ssq j1 j2 Mn) (y : ℤ) (hy : -4500 ≤ y ∧ (y ≤ -723 ∨ -101 ≤ y)) (h1 : (lo : ℚ) ≤ 3652422/10000 * ((y : ℚ) - 2000) + 178)
    (h2 : 3652422/10000 * ((y : ℚ) - 2000) + 182 ≤ (hi : ℚ)) :
    ∃ s t, yearText ssq so qi y = some (s, t) ∧ YearTextOK so qi Q Mn m1 m2 c (OrdinaryRule Q Mn) y s := by
  refine year_text hr hE hT hN hM (ordinary_naming hT hN hM) _ (fun _ h => ⟨leapRule_of hN hM h, rfl⟩) (fun N a i => nameRule_mem _ _) y hy.1 h1 h2 ?_
  intro d hd
  have hd := abs_le.mp hd
  unfold Ordinary
  rcases hy.2 with g | g
  · left
    have g : (y : ℚ) ≤ -723 := by exact_mod_cast g
    have : (d : ℚ) ≤ ((-994100 : ℤ) : ℚ) := by push_cast; linarith
    exact_mod_cast this
  · right
    have g : (-101 : ℚ) ≤ y := by exact_mod_cast g
    have : ((-767700 : ℤ) : ℚ) ≤ (d : ℚ) := by push_cast; linarith
    exact_mod_cast this

/-- C63 from the year after `y0` on, over the reform of 104 BC -/
theorem c63_year_text_historic {so qi : ℚ → ℚ} {c lo hi y0 : ℤ} {s : ℤ → ℤ} (hr : Range Q Mn m1 m2 j1 j2 lo hi) (hE : SkyOK so qi Q Mn m1 m2 j1 j2 c) (hT : TermsOK ssq m1 m2 Q)
    (hN : TermsNear Q m1 m2) (hM : MoonsOK ssq j1 j2 Mn) (hs : Starts Q Mn j1 j2 y0 s) (y : ℤ) (hy : y0 + 1 ≤ y) (h1 : (lo : ℚ) ≤ 3652422/10000 * ((y : ℚ) - 2000) + 178)
    (h2 : 3652422/10000 * ((y : ℚ) - 2000) + 182 ≤ (hi : ℚ)) :
    ∃ text t, yearText ssq so qi y = some (text, t) ∧ YearTextOK so qi Q Mn m1 m2 c (HistoricRule Q Mn s) y text := by
  have hl := hs.low
  refine year_text hr hE hT hN hM (historic_naming hT hN hM hs) _ (fun hP h => historic_rule hT hN hM hs hP h) ?_ y (by omega) h1 h2 ?_
  · intro N a i
    unfold histNM
    by_cases g : N + 2001 ≤ -104
    · rw [if_pos g]; exact ancient_mem _ _
    · rw [if_neg g]; exact nameRule_mem _ _
  · intro d hd
    have hd := abs_le.mp hd
    have hy : ((y0 + 1 : ℤ) : ℚ) ≤ y := by exact_mod_cast hy
    unfold Since meanTerm
    push_cast at hy ⊢
    linarith

/-- C63 for the program with its own tables, 214 BC to AD 615 -/
theorem c63_mean_era (E : Series) (sb qb : List Char) {so qi : ℚ → ℚ} {c : ℤ} (hE : SkyOK so qi termDay moonDay (-53300) (-33097) 0 10378 c) (y : ℤ) (hy : -213 ≤ y ∧ y ≤ 615) :
    ∃ text t, yearText (ssqCalc E sb qb) so qi y = some (text, t) ∧ YearTextOK so qi termDay moonDay (-53300) (-33097) c (HistoricRule termDay moonDay yearMoon) y text := by
  have y1 : (-213 : ℚ) ≤ y := by exact_mod_cast hy.1
  have y2 : (y : ℚ) ≤ 615 := by exact_mod_cast hy.2
  exact c63_year_text_historic era_range hE (terms_ok E sb qb) terms_near (moons_ok E sb qb) starts_ok y (by omega) (by push_cast; linarith) (by push_cast; linarith)

end

/-! ## an ephemeris that agrees with the almanac of the mean era -/

theorem round_angle (n : ℕ) (hn : 1 ≤ n ∧ n ≤ 24) (k : ℤ) (w : ℚ) (h : |w - angle n k| ≤ 1/1000000) : ⌊w * (n / (2 * mPi)) + 1/2⌋ = k := by
  obtain ⟨p1, p2⟩ := mPi_bounds
  have h := abs_le.mp h
  unfold angle at h
  have n1 : (1 : ℚ) ≤ n := by exact_mod_cast hn.1
  have n24 : (n : ℚ) ≤ 24 := by exact_mod_cast hn.2
  have hpos : (0 : ℚ) < n / (2 * mPi) := by
    apply div_pos <;> linarith
  have hle : (n : ℚ) / (2 * mPi) ≤ 4 := by
    rw [div_le_iff₀ (by linarith)]; linarith
  have e : (k : ℚ) * (2 * mPi / n) * (n / (2 * mPi)) = k := by
    field_simp
  have a1 : w * (n / (2 * mPi)) - k = (w - k * (2 * mPi / n)) * (n / (2 * mPi)) := by rw [sub_mul, e]
  have a2 : |w * (n / (2 * mPi)) - k| ≤ 1/1000000 * 4 := by
    rw [a1, abs_mul, abs_of_pos hpos]
    exact mul_le_mul (abs_le.mpr h) hle hpos.le (by norm_num)
  have a2 := abs_le.mp a2
  rw [Int.floor_eq_iff]
  constructor <;> linarith

/-- the ephemeris for which the mean new moons and terms are the true ones -/
def meanSo (w : ℚ) : ℚ := moonDay (⌊w * ((1 : ℕ) / (2 * mPi)) + 1/2⌋ + 27460)
def meanQi (w : ℚ) : ℚ := termDay (⌊w * ((24 : ℕ) / (2 * mPi)) + 1/2⌋ - 42)

theorem meanSky : SkyOK meanSo meanQi termDay moonDay (-53300) (-33097) 0 10378 (-27460) := by
  refine ⟨?_, ?_, ?_, ?_⟩
  · intro j _ _ w hw
    unfold meanSo
    rw [round_angle 1 (by norm_num) _ w hw, show j + -27460 + 27460 = j by ring, sub_self, abs_zero]
    norm_num
  · intro j h1 h2
    have u := moon_up1 j h1 (by omega)
    have l := moon_low j
    have h2 : (j : ℚ) ≤ 10378 := by exact_mod_cast h2
    rw [abs_le]
    push_cast
    rcases moon_cases j h1 (by have : (j : ℚ) ≤ 10380 := by linarith
                               exact_mod_cast this) with ⟨a1, a2, a3⟩ | ⟨a1, a2, a3⟩ | ⟨a1, a2, a3⟩ | ⟨a1, a2, a3⟩ | ⟨a1, a2, a3⟩ | ⟨a1, a2, a3⟩ | ⟨a1, a2, a3⟩ | ⟨a1, a2, a3⟩ | ⟨a1, a2, a3⟩ <;>
    (constructor <;> linarith)
  · intro m _ _ w hw
    unfold meanQi
    rw [round_angle 24 (by norm_num) _ w hw, show m + 42 - 42 = m by ring, sub_self, abs_zero]
    norm_num
  · intro m h1 h2
    have s := (term_step m (by omega) (by omega)).1
    have l := term_low (m + 1)
    have u := term_up m
    have : (termDay m : ℚ) + 9 < termDay (m + 1) := by linarith
    have : termDay m + 9 < termDay (m + 1) := by exact_mod_cast this
    omega

/-- the text of the year 1 -/
example (E : Series) (sb qb : List Char) : ∃ text t, yearText (ssqCalc E sb qb) meanSo meanQi 1 = some (text, t) ∧
    YearTextOK meanSo meanQi termDay moonDay (-53300) (-33097) (-27460) (HistoricRule termDay moonDay yearMoon) 1 text :=
  c63_mean_era E sb qb meanSky 1 (by norm_num)

end Verif.Lunar
