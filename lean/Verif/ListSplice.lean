import Verif.ListWalk
import Verif.Props.InplaceMerge

/-!
# Moving nodes between and within `mystl::list`s: `splice`, `merge`, `sort` (used by C81)
-/

namespace Verif.DList

open Verif.Permute

variable {α : Type}

/-- a chain of nodes linked into a list -/
theorem relink {h : Heap α} {o : Lst} {A M B : List (Ptr × α)} (r : Rep h o (A ++ B)) (pM : Path h (ids M)) (vM : ∀ e ∈ M, vl h e.1 = some (some e.2)) (nM : (ids M).Nodup) (zM : 0 ∉ ids M)
    (dM : ∀ q ∈ ids M, q ∉ nodes o (A ++ B)) {f l : Ptr} (hf : (ids M).head? = some f) (hl : (ids M).getLast? = some l) :
    ∃ h', linkNodes (start o B) f l h = some h' ∧ Rep h' ⟨o.node, (A ++ M ++ B).length⟩ (A ++ M ++ B) ∧ (∀ q, vl h' q = vl h q) ∧ ∀ q, q ∉ nodes o (A ++ M ++ B) → h' q = h q := by
  obtain ⟨h', e', r', v', s'⟩ := ring_link (A := ids A) (B := ids B) (M := ids M) (by simpa [ids] using r.ring) pM nM zM (fun q hq hm => dM q hq (by simpa [nodes, ids] using hm))
    (fun q hq => by obtain ⟨x, hx, rfl⟩ := List.mem_map.mp hq; rw [vM x hx]; simp) hf hl (start_head o B)
  refine ⟨h', e', ⟨by simpa [ids] using r', ?_, by rw [v']; exact r.head, rfl⟩, v', by simpa [nodes, ids] using s'⟩
  intro x hx
  rw [v']
  simp only [List.mem_append] at hx
  rcases hx with (hx | hx) | hx
  · exact r.vals x (by simp [hx])
  · exact vM x hx
  · exact r.vals x (by simp [hx])

theorem Rep.mid {h : Heap α} {o : Lst} {A M B : List (Ptr × α)} (r : Rep h o (A ++ M ++ B)) : (ids M).Nodup ∧ 0 ∉ ids M := by
  have h1 := r.nodup
  have h2 := r.nonzero
  simp only [nodes, ids, List.map_append, List.append_assoc, List.nodup_cons, List.nodup_append, List.mem_cons, List.mem_append, not_or] at h1 h2
  exact ⟨h1.2.2.1.1, h2.2.2.1⟩

/-- a range moved within one list -/
theorem move_self {h : Heap α} {o : Lst} {A B C D M : List (Ptr × α)} (r : Rep h o (C ++ M ++ D)) (hM : M ≠ []) (hAB : A ++ B = C ++ D) :
    ∃ h1 h', unlinkNodes (start o (M ++ D)) (finish o (C ++ M)) h = some h1 ∧ Rep h1 ⟨o.node, (C ++ D).length⟩ (C ++ D) ∧ linkNodes (start o B) (start o (M ++ D)) (finish o (C ++ M)) h1 = some h'
      ∧ Rep h' o (A ++ M ++ B) ∧ Upd h h' (nodes o (C ++ M ++ D)) (nodes o (A ++ M ++ B)) := by
  obtain ⟨h1, e1, r1, p1, v1, s1, d1⟩ := rep_unlink r (ids_head_ne hM o D) (finish_last_ne hM o C)
  obtain ⟨h', e', r', v', s'⟩ := relink (o := ⟨o.node, (C ++ D).length⟩) (A := A) (B := B) (M := M) (by rw [hAB]; exact r1) p1 (fun e he => by rw [v1]; exact r.vals e (by simp [he])) r.mid.1 r.mid.2
    (by rw [hAB]; exact d1) (ids_head_ne hM o D) (finish_last_ne hM o C)
  have hst : start (⟨o.node, (C ++ D).length⟩ : Lst) B = start o B := by cases B <;> rfl
  rw [hst] at e'
  have hl : (A ++ M ++ B).length = o.size := by
    have := congrArg List.length hAB
    rw [r.size]; simp at this ⊢; omega
  have mem : ∀ q, q ∈ nodes o (C ++ M ++ D) ↔ q ∈ nodes o (A ++ M ++ B) := by
    intro q
    have : q ∈ ids (A ++ B) ↔ q ∈ ids (C ++ D) := by rw [hAB]
    simp only [nodes, ids, List.map_append, List.mem_append, List.mem_cons] at this ⊢
    tauto
  refine ⟨h1, h', e1, r1, e', r'.obj rfl hl.symm, ?_⟩
  refine Upd.congr (N := nodes o (C ++ M ++ D)) (N' := nodes o (C ++ M ++ D)) ⟨fun q h2 _ => ?_, fun q h2 h3 => absurd h2 h3, fun q h2 h3 => absurd h2 h3⟩ (fun _ => Iff.rfl) mem
  rw [s' q (fun hm => h2 ((mem q).mpr hm)), s1 q (fun hm => h2 (by simp [nodes, ids] at hm ⊢; tauto))]

/-- two lists share no node -/
def Apart (o x : Lst) (L M : List (Ptr × α)) : Prop := ∀ q ∈ nodes o L, q ∉ nodes x M

/-- a range moved from one list to another -/
theorem move_ok {h : Heap α} {o x : Lst} {A B C D M : List (Ptr × α)} (r : Rep h o (A ++ B)) (rx : Rep h x (C ++ M ++ D)) (hap : Apart o x (A ++ B) (C ++ M ++ D)) (hM : M ≠ []) :
    ∃ h1 h', unlinkNodes (start x (M ++ D)) (finish x (C ++ M)) h = some h1 ∧ linkNodes (start o B) (start x (M ++ D)) (finish x (C ++ M)) h1 = some h'
      ∧ Rep h' ⟨o.node, (A ++ M ++ B).length⟩ (A ++ M ++ B) ∧ Rep h' ⟨x.node, (C ++ D).length⟩ (C ++ D) ∧ Apart o x (A ++ M ++ B) (C ++ D)
      ∧ Upd h h' (nodes o (A ++ B) ++ nodes x (C ++ M ++ D)) (nodes o (A ++ M ++ B) ++ nodes x (C ++ D)) := by
  obtain ⟨h1, e1, r1, p1, v1, s1, d1⟩ := rep_unlink rx (ids_head_ne hM x D) (finish_last_ne hM x C)
  have ro : Rep h1 o (A ++ B) := r.frame (fun q hq => s1 q (fun hm => hap q hq (by simp [nodes, ids] at hm ⊢; tauto)))
  have dM : ∀ q ∈ ids M, q ∉ nodes o (A ++ B) := fun q hq hm => hap q hm (by simp [nodes, ids] at hq ⊢; tauto)
  obtain ⟨h', e', r', v', s'⟩ := relink ro p1 (fun e he => by rw [v1]; exact rx.vals e (by simp [he])) rx.mid.1 rx.mid.2 dM (ids_head_ne hM x D) (finish_last_ne hM x C)
  have ap : Apart o x (A ++ M ++ B) (C ++ D) := by
    intro q hq hm
    have k : q ∈ nodes o (A ++ B) ∨ q ∈ ids M := by simp [nodes, ids] at hq ⊢; tauto
    rcases k with k | k
    · exact hap q k (by simp [nodes, ids] at hm ⊢; tauto)
    · exact d1 q k hm
  refine ⟨h1, h', e1, e', r', r1.frame (fun q hq => s' q (fun hm => ap q hm hq)), ap, ?_⟩
  have mem : ∀ q, q ∈ nodes o (A ++ B) ++ nodes x (C ++ M ++ D) ↔ q ∈ nodes o (A ++ M ++ B) ++ nodes x (C ++ D) := by
    intro q
    simp only [nodes, ids, List.map_append, List.mem_append, List.mem_cons]
    tauto
  refine Upd.congr (N := nodes o (A ++ B) ++ nodes x (C ++ M ++ D)) (N' := nodes o (A ++ B) ++ nodes x (C ++ M ++ D)) ⟨fun q h2 _ => ?_, fun q h2 h3 => absurd h2 h3, fun q h2 h3 => absurd h2 h3⟩ (fun _ => Iff.rfl) mem
  rw [s' q (fun hm => h2 ((mem q).mpr (List.mem_append_left _ hm))), s1 q (fun hm => h2 (by simp [nodes, ids] at hm ⊢; tauto))]

/-! ### `splice` -/

theorem splice_ok {h : Heap α} {o x : Lst} {A B M : List (Ptr × α)} (r : Rep h o (A ++ B)) (rx : Rep h x M) (hap : Apart o x (A ++ B) M) :
    ∃ h', splice (start o B) o x h = some (⟨o.node, (A ++ M ++ B).length⟩, ⟨x.node, 0⟩, h') ∧ Rep h' ⟨o.node, (A ++ M ++ B).length⟩ (A ++ M ++ B) ∧ Rep h' ⟨x.node, 0⟩ ([] : List (Ptr × α))
      ∧ Apart o x (A ++ M ++ B) [] ∧ Upd h h' (nodes o (A ++ B) ++ nodes x M) (nodes o (A ++ M ++ B) ++ nodes x ([] : List (Ptr × α))) := by
  by_cases hM : M = []
  · subst hM
    have hs := r.size
    have hx := rx.size
    simp at hs hx
    refine ⟨h, ?_, (by simpa using r : Rep h o (A ++ [] ++ B)).obj rfl rfl, rx.obj rfl rfl, by simpa using hap, by simpa using Upd.refl h _⟩
    unfold splice
    rw [isEmpty_ok rx]
    show some (o, x, h) = _
    simp [← hs, ← hx]
  · have rx' : Rep h x ([] ++ M ++ []) := by simpa using rx
    obtain ⟨h1, h', e1, e', ro, rx2, ap, u⟩ := move_ok r rx' (by simpa using hap) hM
    refine ⟨h', ?_, ro, rx2, ap, by simpa using u⟩
    unfold splice
    rw [isEmpty_ok rx]
    rw [decide_eq_false hM]
    show (nxt h x.node).bind _ = _
    rw [rx.begin]; show (prv h x.node).bind _ = _
    rw [rx.last]
    rw [List.append_nil] at e1 e'
    show (unlinkNodes (start x M) (finish x M) h).bind _ = _
    rw [show unlinkNodes (start x M) (finish x M) h = some h1 from e1]
    show (linkNodes (start o B) (start x M) (finish x M) h1).bind _ = _
    rw [show linkNodes (start o B) (start x M) (finish x M) h1 = some h' from e']
    show some ((⟨o.node, o.size + x.size⟩ : Lst), (⟨x.node, 0⟩ : Lst), h') = _
    rw [r.size, rx.size]
    simp; omega

theorem spliceOne_ok {h : Heap α} {o x : Lst} {A B C D : List (Ptr × α)} {e : Ptr × α} (r : Rep h o (A ++ B)) (rx : Rep h x (C ++ e :: D)) (hap : Apart o x (A ++ B) (C ++ e :: D)) :
    ∃ h', spliceOne (start o B) e.1 o x h = some (⟨o.node, (A ++ e :: B).length⟩, ⟨x.node, (C ++ D).length⟩, h') ∧ Rep h' ⟨o.node, (A ++ e :: B).length⟩ (A ++ e :: B)
      ∧ Rep h' ⟨x.node, (C ++ D).length⟩ (C ++ D) ∧ Apart o x (A ++ e :: B) (C ++ D) ∧ Upd h h' (nodes o (A ++ B) ++ nodes x (C ++ e :: D)) (nodes o (A ++ e :: B) ++ nodes x (C ++ D)) := by
  have rx' : Rep h x (C ++ [e] ++ D) := by simpa using rx
  obtain ⟨h1, h', e1, e', ro, rx2, ap, u⟩ := move_ok r rx' (by simpa using hap) (by simp)
  have so : start o B ∈ nodes o (A ++ B) := by cases B <;> simp [start, nodes, ids]
  have c1 : start o B ≠ e.1 := fun hh => hap _ so (by rw [hh]; simp [nodes, ids])
  have c2 : start o B ≠ start x D := fun hh => hap _ so (by rw [hh]; cases D <;> simp [start, nodes, ids])
  have hl : A ++ [e] ++ B = A ++ e :: B := by simp
  rw [hl] at ro ap u
  refine ⟨h', ?_, ro, rx2, ap, by simpa using u⟩
  unfold spliceOne
  rw [if_pos c1]
  show (nxt h e.1).bind _ = _
  rw [rx.next]
  show (if start o B ≠ start x D then ((unlinkNodes e.1 e.1 h).bind _) else _) = _
  rw [if_pos c2]
  rw [finish_append] at e1 e'
  rw [show unlinkNodes e.1 e.1 h = some h1 from e1]
  show (linkNodes (start o B) e.1 e.1 h1).bind _ = _
  rw [show linkNodes (start o B) e.1 e.1 h1 = some h' from e']
  show (decr x).bind _ = _
  rw [decr_ok (n := (C ++ D).length) (by rw [rx.size]; simp; omega)]
  show some ((⟨o.node, o.size + 1⟩ : Lst), (⟨x.node, (C ++ D).length⟩ : Lst), h') = _
  rw [r.size]
  simp; omega

theorem spliceRange_ok {h : Heap α} {o x : Lst} {A B C M D : List (Ptr × α)} (r : Rep h o (A ++ B)) (rx : Rep h x (C ++ M ++ D)) (hap : Apart o x (A ++ B) (C ++ M ++ D)) {fuel : Nat} (hf : M.length < fuel) :
    ∃ h', spliceRange fuel (start o B) (start x (M ++ D)) (start x D) o x h = some (⟨o.node, (A ++ M ++ B).length⟩, ⟨x.node, (C ++ D).length⟩, h') ∧ Rep h' ⟨o.node, (A ++ M ++ B).length⟩ (A ++ M ++ B)
      ∧ Rep h' ⟨x.node, (C ++ D).length⟩ (C ++ D) ∧ Apart o x (A ++ M ++ B) (C ++ D) ∧ Upd h h' (nodes o (A ++ B) ++ nodes x (C ++ M ++ D)) (nodes o (A ++ M ++ B) ++ nodes x (C ++ D)) := by
  by_cases hM : M = []
  · subst hM
    have hs := r.size
    have hx := rx.size
    simp at hs hx
    have r1 : Rep h o (A ++ [] ++ B) := by simpa using r
    have r2 : Rep h x (C ++ D) := by simpa using rx
    refine ⟨h, ?_, r1.obj rfl rfl, r2.obj rfl rfl, by simpa using hap, by simpa using Upd.refl h _⟩
    unfold spliceRange
    rw [if_neg (by simp)]
    simp [← hs, ← hx]
  · obtain ⟨h1, h', e1, e', ro, rx2, ap, u⟩ := move_ok r rx hap hM
    refine ⟨h', ?_, ro, rx2, ap, u⟩
    unfold spliceRange
    rw [if_pos (rx.start_ne' hM)]
    show (distance (start x D) h fuel (start x (M ++ D))).bind _ = _
    rw [distance_ok fuel rx hf]; show (prv h (start x D)).bind _ = _
    rw [rx.gap.2]; show (unlinkNodes (start x (M ++ D)) (finish x (C ++ M)) h).bind _ = _
    rw [e1]; show (linkNodes (start o B) (start x (M ++ D)) (finish x (C ++ M)) h1).bind _ = _
    rw [e']
    show (if x.size < M.length then none else some ((⟨o.node, o.size + M.length⟩ : Lst), (⟨x.node, x.size - M.length⟩ : Lst), h')) = _
    rw [rx.size, r.size, if_neg (by simp; omega)]
    simp; omega

/-- one element moved within its own list: to before `B`, where `A ++ B` is the rest of the list -/
theorem spliceOneSelf_ok {h : Heap α} {o : Lst} {A B C D : List (Ptr × α)} {e : Ptr × α} (rx : Rep h o (C ++ e :: D)) (hAB : A ++ B = C ++ D) :
    ∃ h', spliceOneSelf (start o B) e.1 o h = some (o, h') ∧ Rep h' o (A ++ e :: B) ∧ Upd h h' (nodes o (C ++ e :: D)) (nodes o (A ++ e :: B)) := by
  have rx' : Rep h o (C ++ [e] ++ D) := by simpa using rx
  obtain ⟨h1, h', e1, r1, e', ro, u⟩ := move_self rx' (by simp) hAB
  have hl : A ++ [e] ++ B = A ++ e :: B := by simp
  rw [hl] at ro u
  have d1 : e.1 ∉ nodes o (C ++ D) := by
    have := rx.nodup
    simp only [nodes, ids, List.map_append, List.map_cons, List.nodup_cons, List.nodup_append, List.mem_append, List.mem_cons] at this ⊢
    rintro (hh | hh | hh)
    · exact this.1 (Or.inr (Or.inl hh.symm))
    · exact this.2.2.2 _ hh _ (Or.inl rfl) rfl
    · exact this.2.2.1.1 hh
  have c1 : start o B ≠ e.1 := by
    intro hh
    apply d1
    rw [← hh, ← hAB]
    cases B <;> simp [start, nodes, ids]
  by_cases c2 : start o B = start o D
  · -- the element is already there
    have hBD : B = D := by
      -- equal first addresses in a list without repetitions
      have nd : (ids (A ++ B)).Nodup := by
        have := r1.nodup
        rw [← hAB] at this
        simp only [nodes, List.nodup_cons] at this
        exact this.2
      have no : o.node ∉ ids (A ++ B) := by
        have := r1.nodup
        rw [← hAB] at this
        simp only [nodes, List.nodup_cons] at this
        exact this.1
      have key : ∀ (A C B D : List (Ptr × α)), A ++ B = C ++ D → (ids (A ++ B)).Nodup → o.node ∉ ids (A ++ B) → start o B = start o D → B = D := by
        intro A
        induction A with
        | nil =>
          intro C B D hh nd no st
          cases C with
          | nil => simpa using hh
          | cons c C =>
            exfalso
            simp only [List.nil_append] at hh nd no
            subst hh
            simp only [ids, List.cons_append, List.map_cons, List.nodup_cons, List.map_append, List.mem_append, List.mem_cons, not_or] at nd no
            have st' : c.1 = start o D := st
            cases D with
            | nil => exact no.1 st'.symm
            | cons d D => exact nd.1.2 (by simp only [start] at st'; simp [st'])
        | cons a A ih =>
          intro C B D hh nd no st
          cases C with
          | nil =>
            exfalso
            simp only [List.nil_append] at hh
            subst hh
            simp only [ids, List.cons_append, List.map_cons, List.nodup_cons, List.map_append, List.mem_append, List.mem_cons, not_or] at nd no
            have st' : start o B = a.1 := st
            cases B with
            | nil => exact no.1 st'
            | cons d B => exact nd.1.2 (by simp only [start] at st'; simp [st'])
          | cons c C =>
            simp only [List.cons_append, List.cons.injEq] at hh
            simp only [ids, List.cons_append, List.map_cons, List.nodup_cons, List.mem_cons, not_or] at nd no
            exact ih C B D hh.2 nd.2 no.2 st
      exact key A C B D hAB nd no c2
    subst hBD
    have hAC : A = C := List.append_cancel_right hAB
    subst hAC
    refine ⟨h, ?_, rx, Upd.refl h _⟩
    unfold spliceOneSelf
    rw [if_pos c1]
    show (nxt h e.1).bind _ = _
    rw [rx.next]
    show (if start o B ≠ start o B then _ else some (o, h)) = _
    rw [if_neg (by simp)]
  · refine ⟨h', ?_, ro, by simpa using u⟩
    unfold spliceOneSelf
    rw [if_pos c1]
    show (nxt h e.1).bind _ = _
    rw [rx.next]
    show (if start o B ≠ start o D then ((unlinkNodes e.1 e.1 h).bind _) else _) = _
    rw [if_pos c2]
    rw [finish_append] at e1 e'
    rw [show unlinkNodes e.1 e.1 h = some h1 from e1]
    show (linkNodes (start o B) e.1 e.1 h1).bind _ = _
    rw [show linkNodes (start o B) e.1 e.1 h1 = some h' from e']
    rfl

/-! ### `merge` and `sort` -/

/-- the comparison on nodes -/
def ltp (lt : α → α → Bool) (x y : Ptr × α) : Bool := lt x.2 y.2

theorem mrg_run {β : Type} (lt : β → β → Bool) (b : β) (B : List β) : ∀ D : List β, mrg lt (b :: B) D = D.takeWhile (fun d => lt d b) ++ b :: mrg lt B (D.dropWhile (fun d => lt d b))
  | [] => by simp [mrg_nil_right]
  | d :: D => by
    rw [mrg_cons]
    by_cases hd : lt d b = true
    · rw [if_pos hd, mrg_run lt b B D]; simp [hd]
    · rw [if_neg hd]; simp [hd]

theorem runEnd_ok (lt : α → α → Bool) (v1 : α) {h : Heap α} {x : Lst} : ∀ (fuel : Nat) {C D E : List (Ptr × α)}, Rep h x (C ++ D ++ E) → D.length < fuel →
    runEnd lt (start x E) v1 h fuel (start x (D ++ E)) = some (start x (D.dropWhile (fun d => lt d.2 v1) ++ E))
  | 0, _, _, _, _, hk => by omega
  | fuel + 1, C, [], E, _, _ => by unfold runEnd; rw [if_neg (by simp)]; simp
  | fuel + 1, C, d :: D, E, r, hk => by
    have r1 : Rep h x (C ++ d :: (D ++ E)) := by simpa using r
    unfold runEnd
    rw [if_pos (r.start_ne' (by simp))]
    show (value h d.1).bind _ = _
    rw [r1.val]
    by_cases hd : lt d.2 v1 = true
    · show (if lt d.2 v1 then ((nxt h d.1).bind _) else _) = _
      rw [if_pos hd, r1.next]
      have := runEnd_ok lt v1 fuel (C := C ++ [d]) (D := D) (E := E) (by simpa using r) (by simp at hk; omega)
      rw [List.dropWhile_cons_of_pos (by exact hd)]
      exact this
    · show (if lt d.2 v1 then ((nxt h d.1).bind _) else some d.1) = _
      rw [if_neg hd, List.dropWhile_cons_of_neg (by exact hd)]
      rfl

theorem start_obj (p : Ptr) (n m : Nat) (B : List (Ptr × α)) : start (⟨p, n⟩ : Lst) B = start ⟨p, m⟩ B := by cases B <;> rfl
theorem start_obj' (o : Lst) (n : Nat) (B : List (Ptr × α)) : start (⟨o.node, n⟩ : Lst) B = start o B := by cases B <;> rfl

theorem mergeLoop_ok (lt : α → α → Bool) : ∀ (fuel : Nat) {A B D : List (Ptr × α)} {o x : Lst} {h : Heap α}, Rep h o (A ++ B) → Rep h x D → Apart o x (A ++ B) D → B.length + D.length < fuel →
    ∃ (L' D' : List (Ptr × α)) (h' : Heap α), mergeLoop lt o.node x.node fuel (start o B) (start x D) h = some (start x D', h') ∧ Rep h' ⟨o.node, L'.length⟩ L' ∧ Rep h' ⟨x.node, D'.length⟩ D' ∧ Apart o x L' D'
      ∧ L' ++ D' = A ++ mrg (ltp lt) B D ∧ Upd h h' (nodes o (A ++ B) ++ nodes x D) (nodes o L' ++ nodes x D')
  | 0, _, _, _, _, _, _, _, _, _, hk => by omega
  | fuel + 1, A, [], D, o, x, h, r, rx, hap, _ => by
    refine ⟨A, D, h, ?_, (by simpa using r : Rep h o A).obj rfl rfl, rx.obj rfl rfl, by simpa using hap, by rw [mrg_nil_left], by simpa using Upd.refl h _⟩
    unfold mergeLoop
    rw [if_neg (by simp [start])]
  | fuel + 1, A, b :: B, [], o, x, h, r, rx, hap, _ => by
    refine ⟨A ++ b :: B, [], h, ?_, r.obj rfl rfl, rx.obj rfl rfl, hap, by rw [mrg_nil_right]; simp, Upd.refl h _⟩
    unfold mergeLoop
    rw [if_neg (by simp [start])]
  | fuel + 1, A, b :: B, d :: D, o, x, h, r, rx, hap, hk => by
    have rx0 : Rep h x ([] ++ d :: D) := rx
    have cond : start o (b :: B) ≠ o.node ∧ start x (d :: D) ≠ x.node := ⟨r.start_ne, rx0.start_ne⟩
    rw [mrg_run]
    by_cases hd : lt d.2 b.2 = true
    · obtain ⟨M, hMd⟩ : ∃ M, M = d :: D.takeWhile (fun d => lt d.2 b.2) := ⟨_, rfl⟩
      obtain ⟨D', hD'⟩ : ∃ D', D' = D.dropWhile (fun d => lt d.2 b.2) := ⟨_, rfl⟩
      have hsplit : d :: D = M ++ D' := by rw [hMd, hD']; simp
      have t1 : (d :: D).takeWhile (fun d => ltp lt d b) = M := by rw [hMd]; simp [ltp, hd]
      have t2 : (d :: D).dropWhile (fun d => ltp lt d b) = D' := by rw [hD']; simp [ltp, hd]
      rw [t1, t2]
      have rx1 : Rep h x ([] ++ M ++ D') := by simpa [← hsplit] using rx
      obtain ⟨h1, h2, e1, e2, ro, rx2, ap, u⟩ := move_ok r rx1 (by simpa [← hsplit] using hap) (by rw [hMd]; simp)
      have ro1 : Rep h2 ⟨o.node, (A ++ M ++ b :: B).length⟩ ((A ++ M ++ [b]) ++ B) := by simpa using ro
      have ro2 : Rep h2 ⟨o.node, (A ++ M ++ b :: B).length⟩ ((A ++ M) ++ b :: B) := by simpa using ro
      obtain ⟨L', D2, h', e', rl, rd, ap', heq, u'⟩ := mergeLoop_ok lt fuel (x := ⟨x.node, ([] ++ D').length⟩) ro1 (by simpa using rx2) (by simpa [Apart, nodes, ids] using ap) (by
        have := congrArg List.length hsplit
        rw [hMd] at this
        simp at this hk ⊢; omega)
      refine ⟨L', D2, h', ?_, rl, rd, by simpa [Apart, nodes, ids] using ap', by rw [heq]; simp, ?_⟩
      · unfold mergeLoop
        rw [if_pos cond]
        show (value h d.1).bind _ = _
        rw [rx0.val]; show (value h b.1).bind _ = _
        rw [r.val]
        show (if lt d.2 b.2 then ((nxt h d.1).bind _) else _) = _
        rw [if_pos hd, rx0.next]
        have rx3 : Rep h x ([d] ++ D ++ []) := by simpa using rx
        have re := runEnd_ok lt b.2 (fuel + 1) rx3 (by simp at hk; omega)
        rw [← hD', List.append_nil, List.append_nil] at re
        show (runEnd lt x.node b.2 h (fuel + 1) (start x D)).bind _ = _
        rw [show runEnd lt x.node b.2 h (fuel + 1) (start x D) = some (start x D') from re]
        show (prv h (start x D')).bind _ = _
        rw [rx1.gap.2]
        have sM : start x (M ++ D') = d.1 := by rw [← hsplit]; rfl
        rw [sM] at e1 e2
        show (unlinkNodes d.1 (finish x ([] ++ M)) h).bind _ = _
        rw [e1]; show (linkNodes b.1 d.1 (finish x ([] ++ M)) h1).bind _ = _
        rw [show linkNodes b.1 d.1 (finish x ([] ++ M)) h1 = some h2 from e2]
        show (nxt h2 b.1).bind _ = _
        rw [ro2.next]
        rw [start_obj' x, start_obj' x] at e'
        exact e'
      · have k1 : nodes (⟨o.node, (A ++ M ++ b :: B).length⟩ : Lst) (A ++ M ++ [b] ++ B) = nodes o (A ++ M ++ b :: B) := by simp [nodes]
        have k2 : nodes (⟨x.node, ([] ++ D').length⟩ : Lst) D' = nodes x ([] ++ D') := by simp [nodes]
        rw [k1, k2] at u'
        have := u.trans u'
        simpa [← hsplit, nodes] using this
    · have t1 : (d :: D).takeWhile (fun d => ltp lt d b) = [] := by simp [ltp, hd]
      have t2 : (d :: D).dropWhile (fun d => ltp lt d b) = d :: D := by simp [ltp, hd]
      rw [t1, t2]
      obtain ⟨L', D2, h', e', rl, rd, ap', heq, u'⟩ := mergeLoop_ok lt fuel (A := A ++ [b]) (B := B) (by simpa using r) rx (by simpa using hap) (by simp at hk ⊢; omega)
      refine ⟨L', D2, h', ?_, rl, rd, ap', by rw [heq]; simp, by simpa using u'⟩
      unfold mergeLoop
      rw [if_pos cond]
      show (value h d.1).bind _ = _
      rw [rx0.val]; show (value h b.1).bind _ = _
      rw [r.val]
      show (if lt d.2 b.2 then _ else ((nxt h b.1).bind _)) = _
      rw [if_neg hd, r.next]
      exact e'

theorem merge_ok (lt : α → α → Bool) {L D : List (Ptr × α)} {o x : Lst} {h : Heap α} (r : Rep h o L) (rx : Rep h x D) (hap : Apart o x L D) {fuel : Nat} (hf : L.length + D.length < fuel) :
    ∃ h', merge lt fuel o x h = some (⟨o.node, L.length + D.length⟩, ⟨x.node, 0⟩, h') ∧ Rep h' ⟨o.node, L.length + D.length⟩ (mrg (ltp lt) L D) ∧ Rep h' ⟨x.node, 0⟩ ([] : List (Ptr × α))
      ∧ Apart o x (mrg (ltp lt) L D) [] ∧ Upd h h' (nodes o L ++ nodes x D) (nodes o (mrg (ltp lt) L D) ++ nodes x ([] : List (Ptr × α))) := by
  obtain ⟨L', D', h1, e1, rl, rd, ap, heq, u⟩ := mergeLoop_ok lt fuel (A := []) (B := L) r rx hap hf
  rw [List.nil_append] at heq u
  have hlen : (mrg (ltp lt) L D).length = L.length + D.length := mrg_len L D
  have st : merge lt fuel o x h = ((if start x D' ≠ x.node then ((prv h1 x.node).bind fun l => (unlinkNodes (start x D') l h1).bind fun h => linkNodes o.node (start x D') l h) else some h1).bind
      fun h => some ((⟨o.node, o.size + x.size⟩ : Lst), (⟨x.node, 0⟩ : Lst), h)) := by
    unfold merge
    rw [r.begin]; show (nxt h x.node).bind _ = _
    rw [rx.begin]; show (mergeLoop lt o.node x.node fuel (start o L) (start x D) h).bind _ = _
    rw [show mergeLoop lt o.node x.node fuel (start o L) (start x D) h = some (start x D', h1) from e1]
    rfl
  rw [st, r.size, rx.size]
  have rd' : Rep h1 (⟨x.node, D'.length⟩ : Lst) ([] ++ D') := rd
  by_cases hD : D' = []
  · subst hD
    rw [List.append_nil] at heq
    subst heq
    refine ⟨h1, ?_, rl.obj rfl hlen.symm, rd, ap, u⟩
    rw [if_neg (by simp [start])]; rfl
  · have hne : start x D' ≠ x.node := by
      have := rd'.start_iff
      rw [start_obj' x] at this
      rw [Ne, this]; exact hD
    rw [if_pos hne]
    have rl0 : Rep h1 (⟨o.node, L'.length⟩ : Lst) (L' ++ []) := by simpa using rl
    have rd0 : Rep h1 (⟨x.node, D'.length⟩ : Lst) ([] ++ D' ++ []) := by simpa using rd
    obtain ⟨h2, h', e2, e', ro, rx2, ap2, u2⟩ := move_ok rl0 rd0 (by simpa [Apart, nodes, ids] using ap) hD
    rw [List.append_nil, List.nil_append] at e2 e'
    have hf2 : prv h1 x.node = some (finish (⟨x.node, D'.length⟩ : Lst) D') := rd.last
    rw [start_obj' x] at e2 e'
    have hm : L' ++ D' ++ [] = mrg (ltp lt) L D := by rw [List.append_nil]; exact heq
    rw [hm] at ro ap2 u2
    refine ⟨h', ?_, ro.obj rfl hlen.symm, rx2, by simpa [Apart, nodes, ids] using ap2, u.trans ?_⟩
    · rw [hf2]; show (((unlinkNodes (start x D') (finish (⟨x.node, D'.length⟩ : Lst) D') h1).bind _).bind _) = _
      rw [e2]
      show (linkNodes o.node (start x D') (finish (⟨x.node, D'.length⟩ : Lst) D') h2).bind _ = _
      rw [show linkNodes o.node (start x D') (finish (⟨x.node, D'.length⟩ : Lst) D') h2 = some h' from e']
      rfl
    · simpa [nodes] using u2

end Verif.DList
