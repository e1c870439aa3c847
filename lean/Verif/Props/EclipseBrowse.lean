import Verif.EclipseBrowse
import Verif.Props.EclipseSearch

/-!
# C94: the eclipse browser
-/

namespace Verif.Geom

open Real

/-- what a user of the browser can ask for, with the step of one lunation (test1.cpp:455) -/
inductive Ask
  | at (x : ℝ)
  | same
  | back
  | on
  | list

/-- the arguments of the call: `fs` and `jd0` -/
noncomputable def Ask.args : Ask → ℕ × ℝ
  | .at x => (1, x)
  | .same => (2, 0)
  | .back => (3, 0)
  | .on => (4, 0)
  | .list => (5, 0)

/-- the number of the new moon shown, when the last one was number `k` -/
noncomputable def Ask.shows (k : ℤ) : Ask → ℤ
  | .at x => suoN x
  | .same => k
  | .back => k - 1
  | .on => k + 1
  | .list => k

/-- the number of the new moon the browser stands at afterwards: a list leaves it behind its last row -/
noncomputable def Ask.leaves (k : ℤ) (a : Ask) : ℤ := match a with
  | .list => k + 100
  | a => a.shows k

/-- what the new moon number `k` looks like with a table of `n` nodes -/
noncomputable def moonOf (e : Eph) (feat : RsTab → Shown) (n : ℕ) (k : ℤ) : Shown := feat ⟨e.newMoon k, build e k n⟩

/-- the answer: a function of the number of the new moon and nothing else -/
noncomputable def Ask.answer (e : Eph) (feat : RsTab → Shown) (head : String) (k : ℤ) (a : Ask) : String := match a with
  | .list => String.join (head :: (((List.range 100).map fun i : ℕ => moonOf e feat 3 (k + i)).filter (fun r => r.lx ≠ "N")).map Shown.row)
  | a => if (moonOf e feat 7 (a.shows k)).lx = "N" then "无日食" else (moonOf e feat 7 (a.shows k)).text

/-- a session: the calls one after another, the state carried on -/
noncomputable def session (e : Eph) (feat : RsTab → Shown) (head : String) : Browser → List Ask → List (Option String) × Browser
  | b, [] => ([], b)
  | b, a :: as =>
    let r := rs2 e feat head b a.args.1 a.args.2 29.5306
    let rest := session e feat head r.2 as
    (r.1 :: rest.1, rest.2)

/-- the same session as it should be: only the number of the new moon is carried on -/
noncomputable def sessionSpec (e : Eph) (feat : RsTab → Shown) (head : String) : ℤ → List Ask → List (Option String) × ℤ
  | k, [] => ([], k)
  | k, a :: as =>
    let rest := sessionSpec e feat head (a.leaves k) as
    (some (a.answer e feat head k) :: rest.1, rest.2)

/-- all new moons of the session are within 100000 (8000 years) of the year 2000 -/
def InRange : ℤ → List Ask → Prop
  | _, [] => True
  | k, a :: as => |a.shows k| ≤ 100000 ∧ |a.leaves k| ≤ 100000 ∧ InRange (a.leaves k) as

theorem suoN_back {x : ℝ} {k : ℤ} (h : suoN x = k) : suoN (x - 29.5306) = k - 1 := by
  have : suoN (x - 29.5306 + 29.5306) = k := by rw [sub_add_cancel]; exact h
  have h2 := suoN_next (x := x - 29.5306) rfl
  omega

/-- the instant of the browser belongs to the new moon number `k` -/
structure At (e : Eph) (b : Browser) (k : ℤ) : Prop where
  pos : suoN b.jd = k
  kept : Kept e b.tab

variable {e : Eph} {feat : RsTab → Shown} {head : String}

theorem moon_at (hN : ∀ k, |k| ≤ 100000 → |e.newMoon k - meanMoon k| ≤ 3) {x : ℝ} {k : ℤ} (h : suoN x = k) (hk : |k| ≤ 100000) : toMoon e x = e.newMoon k ∧ suoN (toMoon e x) = k := by
  have h1 : toMoon e x = e.newMoon k := by
    have : ⌊(x + 8) / 29.5306⌋ = k := h
    unfold toMoon; rw [this]
  exact ⟨h1, by rw [h1]; exact suoN_near hk ((hN k hk).trans (by norm_num))⟩

theorem rows_ok (hN : ∀ k, |k| ≤ 100000 → |e.newMoon k - meanMoon k| ≤ 3) (n : ℕ) : ∀ (b : Browser) (s : String) (k : ℤ), At e b k → -100000 ≤ k → k + n ≤ 100000 →
    At e ((listRow e feat 29.5306)^[n] (b, s)).1 (k + n) ∧
    ((listRow e feat 29.5306)^[n] (b, s)).2 = s ++ String.join ((((List.range n).map fun i : ℕ => moonOf e feat 3 (k + i)).filter (fun r => r.lx ≠ "N")).map Shown.row) := by
  induction n with
  | zero =>
    intro b s k h _ _
    refine ⟨by simpa using h, ?_⟩
    simp [String.join]
  | succ n ih =>
    intro b s k h h1 h2
    have hk : |k| ≤ 100000 := abs_le.2 ⟨h1, by push_cast at h2; omega⟩
    have ht : b.tab.init e b.jd 3 = ⟨e.newMoon k, build e k 3⟩ := kept_init hN h.kept h.pos (by norm_num)
    have hstep : listRow e feat 29.5306 (b, s) = (⟨b.jd + 29.5306, ⟨e.newMoon k, build e k 3⟩⟩, if (moonOf e feat 3 k).lx = "N" then s else s ++ (moonOf e feat 3 k).row) := by
      unfold listRow moonOf
      simp only [ht]
    have hnext : At e ⟨b.jd + 29.5306, ⟨e.newMoon k, build e k 3⟩⟩ (k + 1) := ⟨suoN_next h.pos, Or.inr ⟨k, 3, hk, rfl⟩⟩
    rw [Function.iterate_succ_apply, hstep]
    obtain ⟨g1, g2⟩ := ih _ (if (moonOf e feat 3 k).lx = "N" then s else s ++ (moonOf e feat 3 k).row) (k + 1) hnext (by omega) (by push_cast at h2; omega)
    have hc : k + 1 + (n : ℤ) = k + ((n + 1 : ℕ) : ℤ) := by push_cast; ring
    rw [hc] at g1
    refine ⟨g1, ?_⟩
    rw [g2, List.range_succ_eq_map, List.map_cons, List.map_map]
    have hm : ((List.range n).map fun i : ℕ => moonOf e feat 3 (k + 1 + (i : ℤ))) = (List.range n).map ((fun i : ℕ => moonOf e feat 3 (k + (i : ℤ))) ∘ Nat.succ) := by
      refine List.map_congr_left fun i _ => ?_
      show moonOf e feat 3 (k + 1 + i) = moonOf e feat 3 (k + ((i + 1 : ℕ) : ℤ))
      congr 1; push_cast; ring
    rw [hm]
    have h0 : k + ((0 : ℕ) : ℤ) = k := by simp
    rw [h0]
    by_cases hl : (moonOf e feat 3 k).lx = "N"
    · rw [if_pos hl, List.filter_cons_of_neg (by simpa using hl)]
    · rw [if_neg hl, List.filter_cons_of_pos (by simpa using hl), List.map_cons, String.join_cons, String.append_assoc]

/-- one call -/
theorem call_ok (hN : ∀ k, |k| ≤ 100000 → |e.newMoon k - meanMoon k| ≤ 3) {b : Browser} {k : ℤ} (h : At e b k) (a : Ask) (h1 : |a.shows k| ≤ 100000) (h2 : |a.leaves k| ≤ 100000) :
    (rs2 e feat head b a.args.1 a.args.2 29.5306).1 = some (a.answer e feat head k) ∧ At e (rs2 e feat head b a.args.1 a.args.2 29.5306).2 (a.leaves k) := by
  have single : ∀ x : ℝ, ∀ j : ℤ, suoN x = j → |j| ≤ 100000 → b.tab.init e (toMoon e x) 7 = ⟨e.newMoon j, build e j 7⟩ ∧ At e ⟨toMoon e x, b.tab.init e (toMoon e x) 7⟩ j := by
    intro x j hx hj
    have m := moon_at hN hx hj
    have t := kept_init hN h.kept m.2 (n := 7) (by norm_num)
    exact ⟨t, m.2, by rw [t]; exact Or.inr ⟨j, 7, hj, rfl⟩⟩
  cases a with
  | «at» x =>
    have := single x (suoN x) rfl h1
    refine ⟨?_, this.2⟩
    show some (if (feat (b.tab.init e (toMoon e x) 7)).lx = "N" then "无日食" else (feat (b.tab.init e (toMoon e x) 7)).text) = _
    rw [this.1]; rfl
  | same =>
    have := single b.jd k h.pos h1
    refine ⟨?_, this.2⟩
    show some (if (feat (b.tab.init e (toMoon e b.jd) 7)).lx = "N" then "无日食" else (feat (b.tab.init e (toMoon e b.jd) 7)).text) = _
    rw [this.1]; rfl
  | back =>
    have := single (b.jd - 29.5306) (k - 1) (suoN_back h.pos) h1
    refine ⟨?_, this.2⟩
    show some (if (feat (b.tab.init e (toMoon e (b.jd - 29.5306)) 7)).lx = "N" then "无日食" else (feat (b.tab.init e (toMoon e (b.jd - 29.5306)) 7)).text) = _
    rw [this.1]; rfl
  | on =>
    have := single (b.jd + 29.5306) (k + 1) (suoN_next h.pos) h1
    refine ⟨?_, this.2⟩
    show some (if (feat (b.tab.init e (toMoon e (b.jd + 29.5306)) 7)).lx = "N" then "无日食" else (feat (b.tab.init e (toMoon e (b.jd + 29.5306)) 7)).text) = _
    rw [this.1]; rfl
  | list =>
    have m := moon_at hN h.pos h1
    have g : k + ((100 : ℕ) : ℤ) ≤ 100000 := by
      have := (abs_le.1 h2).2
      have q : Ask.leaves k .list = k + 100 := rfl
      rw [q] at this
      push_cast
      exact this
    have := rows_ok (feat := feat) hN 100 ⟨toMoon e b.jd, b.tab⟩ head k ⟨m.2, h.kept⟩ (abs_le.1 h1).1 g
    have e1 : rs2 e feat head b 5 0 29.5306 = (some ((listRow e feat 29.5306)^[100] (⟨toMoon e b.jd, b.tab⟩, head)).2, ((listRow e feat 29.5306)^[100] (⟨toMoon e b.jd, b.tab⟩, head)).1) := by
      unfold rs2
      simp only []
      rw [if_neg (by norm_num), if_neg (by norm_num), if_pos (by trivial)]
      simp only [OfNat.ofNat_ne_one, if_false, Nat.reduceEqDiff]
    show (rs2 e feat head b 5 0 29.5306).1 = _ ∧ At e (rs2 e feat head b 5 0 29.5306).2 (k + 100)
    rw [e1]
    generalize (listRow e feat 29.5306)^[100] (⟨toMoon e b.jd, b.tab⟩, head) = o at this
    refine ⟨?_, by have q := this.1; push_cast at q; exact q⟩
    show some o.2 = some (String.join (head :: (((List.range 100).map fun i : ℕ => moonOf e feat 3 (k + i)).filter (fun r => r.lx ≠ "N")).map Shown.row))
    rw [this.2, String.join_cons]

/-- **C94.**  Every session with the browser, however long: from a state at the new moon number `k`, each call answers for the new moon it should — the one of the instant given, the same
one, the one before, the next — and the list for a hundred consecutive new moons, each once and in order; every answer depends on the number of the new moon alone, not on what was looked at
before.  Afterwards the browser stands at the new moon shown last or, after a list, a hundred further on. -/
theorem c94_session (hN : ∀ k, |k| ≤ 100000 → |e.newMoon k - meanMoon k| ≤ 3) (as : List Ask) : ∀ {b : Browser} {k : ℤ}, At e b k → InRange k as →
    (session e feat head b as).1 = (sessionSpec e feat head k as).1 ∧ At e (session e feat head b as).2 (sessionSpec e feat head k as).2 := by
  induction as with
  | nil => intro b k h _; exact ⟨rfl, h⟩
  | cons a as ih =>
    intro b k h hr
    obtain ⟨c1, c2⟩ := call_ok (feat := feat) (head := head) hN h a hr.1 hr.2.1
    obtain ⟨r1, r2⟩ := ih c2 hr.2.2
    refine ⟨?_, r2⟩
    show (rs2 e feat head b a.args.1 a.args.2 29.5306).1 :: _ = some (a.answer e feat head k) :: _
    rw [c1, r1]

/-- before the first call the browser stands at the new moon of 1 August 2008, number 106 -/
theorem c94_fresh (e : Eph) : At e Browser.fresh 106 := by
  refine ⟨?_, Or.inl rfl⟩
  unfold suoN Browser.fresh
  rw [Int.floor_eq_iff]
  norm_num

/-- **C94 (there and back).**  The next and then the one before, or the other way round, leads back to the same new moon. -/
theorem c94_there_and_back (k : ℤ) : Ask.leaves (Ask.leaves k .on) .back = k ∧ Ask.leaves (Ask.leaves k .back) .on = k := by
  constructor <;> simp [Ask.leaves, Ask.shows]

/-- **C94 (defect).**  A list is not without effect: asking for the same eclipse again afterwards answers for the new moon a hundred lunations later. -/
theorem c94_list_moves (k : ℤ) : Ask.shows (Ask.leaves k .list) .same = k + 100 := rfl

/-- **C94 (defect).**  Any mode above 5 leaves the function without a result. -/
theorem c94_no_result (b : Browser) {fs : ℕ} (h : 5 < fs) (x step : ℝ) : (rs2 e feat head b fs x step).1 = none := by
  unfold rs2
  simp only []
  rw [if_neg (by omega), if_neg (by omega), if_neg (by omega)]

/-- **C94 (defect).**  The types of central eclipses and their names: total and annular are named so, except the annular eclipse with part of its path off the Earth (`A1`), which is
called total. -/
theorem c94_names : (∀ x ∈ ["T", "T0", "T1"], "全食".toList <:+ (typeName x).toList) ∧ (∀ x ∈ ["A", "A0"], "环食".toList <:+ (typeName x).toList) ∧
    "全食".toList <:+ (typeName "A1").toList ∧ ¬ "环食".toList <:+ (typeName "A1").toList := by decide

/-- a session: an ephemeris with mean new moons, one eclipse of two, from the state before the first call -/
example : (session ⟨meanMoon, fun _ _ _ => ⟨0, 0, 1⟩, fun _ _ _ => ⟨0, 0, 1⟩, fun _ _ _ => 0⟩ (fun t => if suoN t.Zjd % 2 = 0 then ⟨"T", "全", "t"⟩ else ⟨"N", "", ""⟩) "" Browser.fresh
    [.same, .on, .back, .at 5]).1 = [some "全", some "无日食", some "全", some "全"] := by
  have hN : ∀ k : ℤ, |k| ≤ 100000 → |(⟨meanMoon, fun _ _ _ => ⟨0, 0, 1⟩, fun _ _ _ => ⟨0, 0, 1⟩, fun _ _ _ => 0⟩ : Eph).newMoon k - meanMoon k| ≤ 3 := fun k _ => by
    show |meanMoon k - meanMoon k| ≤ 3
    rw [sub_self, abs_zero]; norm_num
  have h5 : suoN 5 = 0 := by unfold suoN; rw [Int.floor_eq_iff]; norm_num
  have m : ∀ k : ℤ, |k| ≤ 100000 → suoN (meanMoon k) = k := fun k hk => suoN_near hk (by rw [sub_self, abs_zero]; norm_num)
  rw [(c94_session hN [.same, .on, .back, .at 5] (c94_fresh _) (by simp [InRange, Ask.shows, Ask.leaves, h5])).1]
  simp [sessionSpec, Ask.answer, Ask.leaves, Ask.shows, moonOf, m, h5]

end Verif.Geom
