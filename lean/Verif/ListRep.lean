import Verif.ListModel
import Mathlib.Data.List.Basic
import Mathlib.Data.List.Nodup
import Mathlib.Data.List.Chain
import Mathlib.Tactic.Common

/-!
# Rings of nodes (used by C81)
-/

namespace Verif.DList

variable {α : Type}

/-- the value field of an allocated cell -/
def vl (h : Heap α) (p : Ptr) : Option (Option α) := (h p).map (fun c => c.val)

theorem heap_ext {h h' : Heap α} {q : Ptr} (h1 : nxt h' q = nxt h q) (h2 : prv h' q = prv h q) (h3 : vl h' q = vl h q) : h' q = h q := by
  unfold nxt at h1; unfold prv at h2; unfold vl at h3
  cases e : h q with
  | none => rw [e] at h1; simpa using h1
  | some c =>
    cases e' : h' q with
    | none => rw [e, e'] at h1; simp at h1
    | some c' =>
      rw [e, e'] at h1 h2 h3
      simp only [Option.map_some, Option.some.injEq] at h1 h2 h3
      obtain ⟨a, b, v⟩ := c
      obtain ⟨a', b', v'⟩ := c'
      simp only at h1 h2 h3
      rw [h1, h2, h3]

theorem alive_vl {h : Heap α} {p : Ptr} : vl h p ≠ none ↔ ∃ c, h p = some c := by
  unfold vl
  cases h p <;> simp

theorem alive_nxt {h : Heap α} {p x : Ptr} (hn : nxt h p = some x) : vl h p ≠ none := by
  rw [alive_vl]
  unfold nxt at hn
  cases e : h p with
  | none => rw [e] at hn; simp at hn
  | some c => exact ⟨c, rfl⟩
theorem alive_prv {h : Heap α} {p x : Ptr} (hn : prv h p = some x) : vl h p ≠ none := by
  rw [alive_vl]
  unfold prv at hn
  cases e : h p with
  | none => rw [e] at hn; simp at hn
  | some c => exact ⟨c, rfl⟩

theorem value_vl {h : Heap α} {p : Ptr} {v : α} (hv : vl h p = some (some v)) : value h p = some v := by
  unfold vl at hv
  unfold value
  cases e : h p with
  | none => rw [e] at hv; simp at hv
  | some c => rw [e] at hv; simpa using hv

theorem value_none {h : Heap α} {p : Ptr} (hv : vl h p = some none) : value h p = none := by
  unfold vl at hv
  unfold value
  cases e : h p with
  | none => rfl
  | some c => rw [e] at hv; simpa using hv

theorem setNext_ok {h : Heap α} {p : Ptr} (v : Ptr) (ha : vl h p ≠ none) :
    ∃ h', setNext h p v = some h' ∧ (∀ q, nxt h' q = if q = p then some v else nxt h q) ∧ (∀ q, prv h' q = prv h q) ∧ ∀ q, vl h' q = vl h q := by
  obtain ⟨c, hc⟩ := alive_vl.mp ha
  refine ⟨put h p (some { c with next := v }), by unfold setNext; rw [hc]; rfl, ?_, ?_, ?_⟩ <;> intro q <;> simp only [nxt, prv, vl, put] <;> split_ifs with e <;> simp [e, hc]

theorem setPrev_ok {h : Heap α} {p : Ptr} (v : Ptr) (ha : vl h p ≠ none) :
    ∃ h', setPrev h p v = some h' ∧ (∀ q, prv h' q = if q = p then some v else prv h q) ∧ (∀ q, nxt h' q = nxt h q) ∧ ∀ q, vl h' q = vl h q := by
  obtain ⟨c, hc⟩ := alive_vl.mp ha
  refine ⟨put h p (some { c with prev := v }), by unfold setPrev; rw [hc]; rfl, ?_, ?_, ?_⟩ <;> intro q <;> simp only [nxt, prv, vl, put] <;> split_ifs with e <;> simp [e, hc]

theorem setVal_ok {h : Heap α} {p : Ptr} {w : α} (v : α) (ha : vl h p = some (some w)) :
    ∃ h', setVal h p v = some h' ∧ (∀ q, prv h' q = prv h q) ∧ (∀ q, nxt h' q = nxt h q) ∧ ∀ q, vl h' q = if q = p then some (some v) else vl h q := by
  obtain ⟨c, hc⟩ := alive_vl.mp (by rw [ha]; simp : vl h p ≠ none)
  have hv : c.val = some w := by unfold vl at ha; rw [hc] at ha; simpa using ha
  refine ⟨put h p (some { c with val := some v }), by unfold setVal; simp [hc, hv], ?_, ?_, ?_⟩ <;> intro q <;> simp only [nxt, prv, vl, put] <;> split_ifs with e <;> simp [e, hc]

/-- what joining four ends does -/
def Links (h h' : Heap α) (x first last y : Ptr) : Prop :=
  (∀ q, nxt h' q = if q = x then some first else if q = last then some y else nxt h q) ∧
    (∀ q, prv h' q = if q = y then some last else if q = first then some x else prv h q) ∧ ∀ q, vl h' q = vl h q

theorem linkNodes_ok {h : Heap α} {x y first last : Ptr} (hx : prv h y = some x) (ax : vl h x ≠ none) (af : vl h first ≠ none) (al : vl h last ≠ none) (hne : x ≠ last) :
    ∃ h', linkNodes y first last h = some h' ∧ Links h h' x first last y := by
  obtain ⟨h1, e1, n1, p1, v1⟩ := setNext_ok first ax
  obtain ⟨h2, e2, p2, n2, v2⟩ := setPrev_ok (h := h1) x (by rw [v1]; exact af)
  obtain ⟨h3, e3, p3, n3, v3⟩ := setPrev_ok (h := h2) (p := y) last (by rw [v2, v1]; exact alive_prv hx)
  obtain ⟨h4, e4, n4, p4, v4⟩ := setNext_ok (h := h3) (p := last) y (by rw [v3, v2, v1]; exact al)
  refine ⟨h4, ?_, ?_, ?_, ?_⟩
  · unfold linkNodes
    rw [hx]; show (setNext h x first).bind _ = _
    rw [e1]; show (prv h1 y).bind _ = _
    rw [p1, hx]; show (setPrev h1 first x).bind _ = _
    rw [e2]; show (setPrev h2 y last).bind _ = _
    rw [e3]; exact e4
  · intro q
    rw [n4, n3, n2, n1]
    by_cases a : q = last
    · rw [if_pos a, if_pos a, if_neg (by rw [a]; exact hne.symm)]
    · rw [if_neg a, if_neg a]
  · intro q
    rw [p4, p3, p2, p1]
  · intro q
    rw [v4, v3, v2, v1]

theorem linkFront_ok {h : Heap α} {x y first last : Ptr} (hy : nxt h x = some y) (ay : vl h y ≠ none) (af : vl h first ≠ none) (al : vl h last ≠ none) (hne : y ≠ first) :
    ∃ h', linkFront x first last h = some h' ∧ Links h h' x first last y := by
  obtain ⟨h1, e1, p1, n1, v1⟩ := setPrev_ok x af
  obtain ⟨h2, e2, n2, p2, v2⟩ := setNext_ok (h := h1) y (by rw [v1]; exact al)
  obtain ⟨h3, e3, p3, n3, v3⟩ := setPrev_ok (h := h2) (p := y) last (by rw [v2, v1]; exact ay)
  obtain ⟨h4, e4, n4, p4, v4⟩ := setNext_ok (h := h3) (p := x) first (by rw [v3, v2, v1]; exact alive_nxt hy)
  refine ⟨h4, ?_, ?_, ?_, ?_⟩
  · unfold linkFront
    rw [e1]; show (nxt h1 x).bind _ = _
    rw [n1, hy]; show (setNext h1 last y).bind _ = _
    rw [e2]; show (nxt h2 last).bind _ = _
    rw [n2, if_pos rfl]; show (setPrev h2 y last).bind _ = _
    rw [e3]; exact e4
  · intro q
    rw [n4, n3, n2, n1]
  · intro q
    rw [p4, p3, p2, p1]
  · intro q
    rw [v4, v3, v2, v1]

theorem linkBack_ok {h : Heap α} {x y first last : Ptr} (hx : prv h y = some x) (ax : vl h x ≠ none) (af : vl h first ≠ none) (al : vl h last ≠ none) :
    ∃ h', linkBack y first last h = some h' ∧ Links h h' x first last y := by
  obtain ⟨h1, e1, n1, p1, v1⟩ := setNext_ok y al
  obtain ⟨h2, e2, p2, n2, v2⟩ := setPrev_ok (h := h1) x (by rw [v1]; exact af)
  obtain ⟨h3, e3, n3, p3, v3⟩ := setNext_ok (h := h2) (p := x) first (by rw [v2, v1]; exact ax)
  obtain ⟨h4, e4, p4, n4, v4⟩ := setPrev_ok (h := h3) (p := y) last (by rw [v3, v2, v1]; exact alive_prv hx)
  refine ⟨h4, ?_, ?_, ?_, ?_⟩
  · unfold linkBack
    rw [e1]; show (prv h1 y).bind _ = _
    rw [p1, hx]; show (setPrev h1 first x).bind _ = _
    rw [e2]; show (prv h2 first).bind _ = _
    rw [p2, if_pos rfl]; show (setNext h2 x first).bind _ = _
    rw [e3]; exact e4
  · intro q
    rw [n4, n3, n2, n1]
  · intro q
    rw [p4, p3, p2, p1]
  · intro q
    rw [v4, v3, v2, v1]

/-- what taking out a piece does -/
def Unlinks (h h' : Heap α) (x y : Ptr) : Prop :=
  (∀ q, nxt h' q = if q = x then some y else nxt h q) ∧ (∀ q, prv h' q = if q = y then some x else prv h q) ∧ ∀ q, vl h' q = vl h q

theorem unlinkNodes_ok {h : Heap α} {x y first last : Ptr} (hx : prv h first = some x) (hy : nxt h last = some y) (ax : vl h x ≠ none) (ay : vl h y ≠ none) (hne : x ≠ last) :
    ∃ h', unlinkNodes first last h = some h' ∧ Unlinks h h' x y := by
  obtain ⟨h1, e1, n1, p1, v1⟩ := setNext_ok y ax
  obtain ⟨h2, e2, p2, n2, v2⟩ := setPrev_ok (h := h1) (p := y) x (by rw [v1]; exact ay)
  refine ⟨h2, ?_, ?_, ?_, ?_⟩
  · unfold unlinkNodes
    rw [hx]; show (nxt h last).bind _ = _
    rw [hy]; show (setNext h x y).bind _ = _
    rw [e1]; show (nxt h1 last).bind _ = _
    rw [n1, if_neg hne.symm, hy]; show (prv h1 first).bind _ = _
    rw [p1, hx]; exact e2
  · intro q; rw [n2, n1]
  · intro q; rw [p2, p1]
  · intro q; rw [v2, v1]

/-! ## Chains and rings -/

/-- `x` and `y` are neighbours -/
def R (h : Heap α) (x y : Ptr) : Prop := nxt h x = some y ∧ prv h y = some x

abbrev Path (h : Heap α) (l : List Ptr) : Prop := l.IsChain (R h)

theorem path_frame {h h' : Heap α} : ∀ {l : List Ptr}, Path h l → (∀ q ∈ l.dropLast, nxt h' q = nxt h q) → (∀ q ∈ l.tail, prv h' q = prv h q) → Path h' l
  | [], _, _, _ => List.IsChain.nil
  | [a], _, _, _ => List.IsChain.singleton a
  | a :: b :: l, hp, hn, hv => by
    rw [Path, List.isChain_cons_cons] at hp ⊢
    refine ⟨⟨?_, ?_⟩, path_frame hp.2 (fun q hq => hn q ?_) (fun q hq => hv q ?_)⟩
    · rw [hn a (by simp)]; exact hp.1.1
    · rw [hv b (by simp)]; exact hp.1.2
    · rw [List.dropLast_cons₂]; exact List.mem_cons_of_mem _ hq
    · exact List.mem_cons_of_mem _ hq

theorem path_append {h : Heap α} {l1 l2 : List Ptr} {x y : Ptr} (hx : l1.getLast? = some x) (hy : l2.head? = some y) :
    Path h (l1 ++ l2) ↔ Path h l1 ∧ Path h l2 ∧ R h x y := by
  rw [Path, List.isChain_append, hx, hy]
  simp

/-- the end node `hd` and the nodes `l` form a ring -/
structure Ring (h : Heap α) (hd : Ptr) (l : List Ptr) : Prop where
  path : Path h (hd :: l ++ [hd])
  nodup : (hd :: l).Nodup
  pos : 0 ∉ hd :: l

theorem not_mem_dropLast {l : List Ptr} {x : Ptr} (hn : l.Nodup) (hx : l.getLast? = some x) : x ∉ l.dropLast := by
  obtain ⟨l', rfl⟩ : ∃ l', l = l' ++ [x] := List.getLast?_eq_some_iff.mp hx
  rw [List.dropLast_concat]
  rw [List.nodup_append] at hn
  intro hm
  exact hn.2.2 x hm x (by simp) rfl

theorem not_mem_tail {l : List Ptr} {x : Ptr} (hn : l.Nodup) (hx : l.head? = some x) : x ∉ l.tail := by
  cases l with
  | nil => simp
  | cons a l => simp at hx; rw [← hx]; exact (List.nodup_cons.mp hn).1

theorem mem_last {l : List Ptr} {x : Ptr} (hx : l.getLast? = some x) : x ∈ l := List.mem_of_getLast? hx
theorem mem_head {l : List Ptr} {x : Ptr} (hx : l.head? = some x) : x ∈ l := List.mem_of_head? hx

theorem alive_path {h : Heap α} : ∀ {l : List Ptr} {q : Ptr}, Path h l → 2 ≤ l.length → q ∈ l → vl h q ≠ none
  | [], _, _, h2, _ => by simp at h2
  | [a], _, _, h2, _ => by simp at h2
  | [a, b], q, hp, _, hq => by
    rw [Path, List.isChain_cons_cons] at hp
    simp at hq
    rcases hq with rfl | rfl
    · exact alive_nxt hp.1.1
    · exact alive_prv hp.1.2
  | a :: b :: c :: l, q, hp, _, hq => by
    rw [Path, List.isChain_cons_cons] at hp
    rcases List.mem_cons.mp hq with rfl | hq
    · exact alive_nxt hp.1.1
    · exact alive_path hp.2 (by simp) hq

theorem Ring.alive {h : Heap α} {hd : Ptr} {l : List Ptr} (r : Ring h hd l) {q : Ptr} (hq : q ∈ hd :: l) : vl h q ≠ none :=
  alive_path r.path (by simp) (by rw [List.cons_append]; rcases List.mem_cons.mp hq with rfl | hq <;> simp [*])

theorem Ring.frame {h h' : Heap α} {hd : Ptr} {l : List Ptr} (r : Ring h hd l) (hn : ∀ q ∈ hd :: l, nxt h' q = nxt h q) (hp : ∀ q ∈ hd :: l, prv h' q = prv h q) : Ring h' hd l := by
  refine ⟨path_frame r.path (fun q hq => hn q ?_) (fun q hq => hp q ?_), r.nodup, r.pos⟩
  · rwa [List.dropLast_concat] at hq
  · simp at hq; simp; tauto

theorem Ring.frame' {h h' : Heap α} {hd : Ptr} {l : List Ptr} (r : Ring h hd l) (hn : ∀ q ∈ hd :: l, h' q = h q) : Ring h' hd l :=
  r.frame (fun q hq => by unfold nxt; rw [hn q hq]) (fun q hq => by unfold prv; rw [hn q hq])

/-- the neighbours of a gap -/
theorem Ring.gap {h : Heap α} {hd : Ptr} {A B : List Ptr} (r : Ring h hd (A ++ B)) {x y : Ptr} (hx : (hd :: A).getLast? = some x) (hy : (B ++ [hd]).head? = some y) :
    nxt h x = some y ∧ prv h y = some x := by
  have := r.path
  rw [show hd :: (A ++ B) ++ [hd] = (hd :: A) ++ (B ++ [hd]) by simp, path_append hx hy] at this
  exact this.2.2

/-- taking a piece out of a ring -/
theorem ring_unlink {h : Heap α} {hd : Ptr} {A M B : List Ptr} {f l : Ptr} (r : Ring h hd (A ++ M ++ B)) (hf : M.head? = some f) (hl : M.getLast? = some l) :
    ∃ h', unlinkNodes f l h = some h' ∧ Ring h' hd (A ++ B) ∧ Path h' M ∧ (∀ q, vl h' q = vl h q) ∧ ∀ q, q ∉ hd :: (A ++ B) → h' q = h q := by
  obtain ⟨x, hx⟩ : ∃ x, (hd :: A).getLast? = some x := ⟨_, List.getLast?_eq_some_getLast (by simp)⟩
  obtain ⟨y, hy⟩ : ∃ y, (B ++ [hd]).head? = some y := ⟨_, List.head?_eq_some_head (by simp)⟩
  have hM : M ≠ [] := by rintro rfl; simp at hf
  have hx' : (hd :: A ++ M).getLast? = some l := by rw [List.getLast?_append_of_ne_nil _ hM, hl]
  have hp := r.path
  rw [show hd :: (A ++ M ++ B) ++ [hd] = (hd :: A ++ M) ++ (B ++ [hd]) by simp, path_append hx' hy, path_append hx hf] at hp
  obtain ⟨⟨hp1, hp2, hxf⟩, hp3, hly⟩ := hp
  have xm := mem_last hx
  have ym := mem_head hy
  have lm := mem_last hl
  have fm := mem_head hf
  have nd := r.nodup
  have nd1 : (hd :: A).Nodup := by
    refine nd.sublist (List.Sublist.cons_cons _ ?_)
    rw [List.append_assoc]; exact List.sublist_append_left _ _
  have ndAM : ∀ q ∈ hd :: A, q ∉ M := by
    intro q hq hq'
    have : (hd :: A ++ (M ++ B)).Nodup := by rw [List.cons_append, ← List.append_assoc]; exact nd
    exact (List.nodup_append.mp this).2.2 q hq q (by simp [hq']) rfl
  have ndB : (B ++ [hd]).Nodup := by
    have : (hd :: (A ++ M) ++ B).Nodup := by rw [List.cons_append]; exact nd
    have k := List.nodup_append.mp this
    rw [List.nodup_append]
    refine ⟨k.2.1, by simp, ?_⟩
    intro a ha b hb e
    simp at hb
    exact k.2.2 hd (by simp) a ha (by rw [e, hb])
  have ndB' : ∀ q ∈ A ++ M, q ∉ B ++ [hd] := by
    intro q hq hq'
    rcases List.mem_append.mp hq' with hb | hb
    · have : (hd :: (A ++ M) ++ B).Nodup := by rw [List.cons_append]; exact nd
      exact (List.nodup_append.mp this).2.2 q (List.mem_cons_of_mem _ hq) q hb rfl
    · simp at hb
      rw [hb] at hq
      exact (List.nodup_cons.mp nd).1 (List.mem_append_left _ hq)
  have ax : vl h x ≠ none := alive_nxt hxf.1
  have ay : vl h y ≠ none := alive_prv hly.2
  obtain ⟨h', e', n', p', v'⟩ := unlinkNodes_ok hxf.2 hly.1 ax ay (fun e => ndAM x xm (by rw [e]; exact lm))
  have nx : ∀ q, q ≠ x → nxt h' q = nxt h q := fun q hq => by rw [n', if_neg hq]
  have py : ∀ q, q ≠ y → prv h' q = prv h q := fun q hq => by rw [p', if_neg hq]
  refine ⟨h', e', ⟨?_, ?_, ?_⟩, ?_, v', ?_⟩
  · rw [show hd :: (A ++ B) ++ [hd] = (hd :: A) ++ (B ++ [hd]) by simp, path_append hx hy]
    refine ⟨path_frame hp1 (fun q hq => nx q ?_) (fun q hq => py q ?_), path_frame hp3 (fun q hq => nx q ?_) (fun q hq => py q ?_), ?_, ?_⟩
    · rintro rfl; exact not_mem_dropLast nd1 hx hq
    · rintro rfl; exact ndB' q (List.mem_append_left _ (by simpa using hq)) ym
    · rintro rfl
      rw [List.dropLast_concat] at hq
      rcases List.mem_cons.mp xm with e | e
      · rw [e] at hq; exact (List.nodup_cons.mp nd).1 (by simp [hq])
      · exact ndB' q (List.mem_append_left _ e) (by simp [hq])
    · rintro rfl; exact not_mem_tail ndB hy hq
    · rw [n', if_pos rfl]
    · rw [p', if_pos rfl]
  · exact nd.sublist (List.Sublist.cons_cons _ (by rw [List.append_assoc]; exact List.Sublist.append (List.Sublist.refl _) (List.sublist_append_right _ _)))
  · have := r.pos; simp at this ⊢; tauto
  · refine path_frame hp2 (fun q hq => nx q ?_) (fun q hq => py q ?_)
    · rintro rfl; exact ndAM q xm (List.dropLast_subset _ hq)
    · rintro rfl; exact ndB' q (List.mem_append_right _ (List.mem_of_mem_tail hq)) ym
  · intro q hq
    refine heap_ext (nx q ?_) (py q ?_) (v' q)
    · rintro rfl; exact hq (by rcases List.mem_cons.mp xm with e | e <;> simp [e])
    · rintro rfl; exact hq (by simp at ym ⊢; tauto)

/-- putting a piece into a ring -/
theorem ring_links {h h' : Heap α} {hd : Ptr} {A M B : List Ptr} {f l x y : Ptr} (r : Ring h hd (A ++ B)) (pm : Path h M) (hM : M.Nodup) (h0 : 0 ∉ M) (hd' : ∀ q ∈ M, q ∉ hd :: (A ++ B))
    (hf : M.head? = some f) (hl : M.getLast? = some l) (hx : (hd :: A).getLast? = some x) (hy : (B ++ [hd]).head? = some y) (hk : Links h h' x f l y) :
    Ring h' hd (A ++ M ++ B) ∧ (∀ q, vl h' q = vl h q) ∧ ∀ q, q ∉ hd :: (A ++ M ++ B) → h' q = h q := by
  obtain ⟨n', p', v'⟩ := hk
  have hMne : M ≠ [] := by rintro rfl; simp at hf
  have hx' : (hd :: A ++ M).getLast? = some l := by rw [List.getLast?_append_of_ne_nil _ hMne, hl]
  have hp := r.path
  rw [show hd :: (A ++ B) ++ [hd] = (hd :: A) ++ (B ++ [hd]) by simp, path_append hx hy] at hp
  obtain ⟨hp1, hp3, hxy⟩ := hp
  have xm := mem_last hx
  have ym := mem_head hy
  have lm := mem_last hl
  have fm := mem_head hf
  have nd := r.nodup
  have xin : x ∈ hd :: (A ++ B) := by rcases List.mem_cons.mp xm with e | e <;> simp [e]
  have yin : y ∈ hd :: (A ++ B) := by simp at ym ⊢; tauto
  have nd1 : (hd :: A).Nodup := nd.sublist (List.Sublist.cons_cons _ (List.sublist_append_left _ _))
  have ndB : (B ++ [hd]).Nodup := by
    have : (hd :: A ++ B).Nodup := by rw [List.cons_append]; exact nd
    have k := List.nodup_append.mp this
    rw [List.nodup_append]
    refine ⟨k.2.1, by simp, ?_⟩
    intro a ha b hb e
    simp at hb
    exact k.2.2 hd (by simp) a ha (by rw [e, hb])
  have ndA : ∀ q ∈ A, q ∉ B ++ [hd] := by
    intro q hq hq'
    rcases List.mem_append.mp hq' with hb | hb
    · have : (hd :: A ++ B).Nodup := by rw [List.cons_append]; exact nd
      exact (List.nodup_append.mp this).2.2 q (List.mem_cons_of_mem _ hq) q hb rfl
    · simp at hb
      rw [hb] at hq
      exact (List.nodup_cons.mp nd).1 (List.mem_append_left _ hq)
  have nx : ∀ q, q ≠ x → q ≠ l → nxt h' q = nxt h q := fun q h1 h2 => by rw [n', if_neg h1, if_neg h2]
  have py : ∀ q, q ≠ y → q ≠ f → prv h' q = prv h q := fun q h1 h2 => by rw [p', if_neg h1, if_neg h2]
  have hxM : x ∉ M := fun hm => hd' x hm xin
  have hyM : y ∉ M := fun hm => hd' y hm yin
  refine ⟨⟨?_, ?_, ?_⟩, v', ?_⟩
  · rw [show hd :: (A ++ M ++ B) ++ [hd] = (hd :: A ++ M) ++ (B ++ [hd]) by simp, path_append hx' hy, path_append hx hf]
    refine ⟨⟨path_frame hp1 (fun q hq => nx q ?_ ?_) (fun q hq => py q ?_ ?_), path_frame pm (fun q hq => nx q ?_ ?_) (fun q hq => py q ?_ ?_), ?_, ?_⟩,
      path_frame hp3 (fun q hq => nx q ?_ ?_) (fun q hq => py q ?_ ?_), ?_, ?_⟩
    · rintro rfl; exact not_mem_dropLast nd1 hx hq
    · rintro rfl; exact hd' q lm (by have := List.dropLast_subset _ hq; rcases List.mem_cons.mp this with e | e <;> simp [e])
    · rintro rfl; exact ndA q (by simpa using hq) ym
    · rintro rfl; exact hd' q fm (by simp at hq; simp [hq])
    · rintro rfl; exact hxM (List.dropLast_subset _ hq)
    · rintro rfl; exact not_mem_dropLast hM hl hq
    · rintro rfl; exact hyM (List.mem_of_mem_tail hq)
    · rintro rfl; exact not_mem_tail hM hf hq
    · rw [n', if_pos rfl]
    · rw [p', if_neg (by rintro rfl; exact hyM fm), if_pos rfl]
    · rintro rfl
      rw [List.dropLast_concat] at hq
      rcases List.mem_cons.mp xm with e | e
      · rw [e] at hq; exact (List.nodup_cons.mp nd).1 (by simp [hq])
      · exact ndA q e (by simp [hq])
    · rintro rfl; rw [List.dropLast_concat] at hq; exact hd' q lm (by simp [hq])
    · rintro rfl; exact not_mem_tail ndB hy hq
    · rintro rfl; exact hd' q fm (by have := List.mem_of_mem_tail hq; simp at this; simp; tauto)
    · rw [n', if_neg (by rintro rfl; exact hxM lm), if_pos rfl]
    · rw [p', if_pos rfl]
  · have k := List.nodup_cons.mp nd
    have k2 := List.nodup_append.mp k.2
    rw [List.nodup_cons, List.nodup_append, List.nodup_append]
    refine ⟨?_, ⟨k2.1, hM, ?_⟩, k2.2.1, ?_⟩
    · intro hm
      simp at hm
      rcases hm with hm | hm | hm
      · exact k.1 (by simp [hm])
      · exact hd' hd hm (by simp)
      · exact k.1 (by simp [hm])
    · rintro a ha b hb rfl; exact hd' a hb (by simp [ha])
    · rintro a ha b hb rfl
      rcases List.mem_append.mp ha with ha | ha
      · exact k2.2.2 a ha a hb rfl
      · exact hd' a ha (by simp [hb])
  · have := r.pos; simp at this ⊢; tauto
  · intro q hq
    refine heap_ext (nx q ?_ ?_) (py q ?_ ?_) (v' q)
    · rintro rfl; exact hq (by simp at xin ⊢; tauto)
    · rintro rfl; exact hq (by simp [lm])
    · rintro rfl; exact hq (by simp at yin ⊢; tauto)
    · rintro rfl; exact hq (by simp [fm])

/-- `link_nodes` puts a piece before `y` -/
theorem ring_link {h : Heap α} {hd : Ptr} {A M B : List Ptr} {f l y : Ptr} (r : Ring h hd (A ++ B)) (pm : Path h M) (hM : M.Nodup) (h0 : 0 ∉ M) (hd' : ∀ q ∈ M, q ∉ hd :: (A ++ B))
    (ha : ∀ q ∈ M, vl h q ≠ none) (hf : M.head? = some f) (hl : M.getLast? = some l) (hy : (B ++ [hd]).head? = some y) :
    ∃ h', linkNodes y f l h = some h' ∧ Ring h' hd (A ++ M ++ B) ∧ (∀ q, vl h' q = vl h q) ∧ ∀ q, q ∉ hd :: (A ++ M ++ B) → h' q = h q := by
  obtain ⟨x, hx⟩ : ∃ x, (hd :: A).getLast? = some x := ⟨_, List.getLast?_eq_some_getLast (by simp)⟩
  have g := r.gap hx hy
  have xin : x ∈ hd :: (A ++ B) := by rcases List.mem_cons.mp (mem_last hx) with e | e <;> simp [e]
  obtain ⟨h', e', hk⟩ := linkNodes_ok g.2 (alive_nxt g.1) (ha f (mem_head hf)) (ha l (mem_last hl)) (by rintro rfl; exact hd' x (mem_last hl) xin)
  exact ⟨h', e', ring_links r pm hM h0 hd' hf hl hx hy hk⟩

/-- `link_nodes_at_front` -/
theorem ring_front {h : Heap α} {hd : Ptr} {M B : List Ptr} {f l : Ptr} (r : Ring h hd B) (pm : Path h M) (hM : M.Nodup) (h0 : 0 ∉ M) (hd' : ∀ q ∈ M, q ∉ hd :: B)
    (ha : ∀ q ∈ M, vl h q ≠ none) (hf : M.head? = some f) (hl : M.getLast? = some l) :
    ∃ h', linkFront hd f l h = some h' ∧ Ring h' hd (M ++ B) ∧ (∀ q, vl h' q = vl h q) ∧ ∀ q, q ∉ hd :: (M ++ B) → h' q = h q := by
  obtain ⟨y, hy⟩ : ∃ y, (B ++ [hd]).head? = some y := ⟨_, List.head?_eq_some_head (by simp)⟩
  have r' : Ring h hd ([] ++ B) := r
  have g := r'.gap (x := hd) rfl hy
  have yin : y ∈ hd :: B := by have := mem_head hy; simp at this ⊢; tauto
  obtain ⟨h', e', hk⟩ := linkFront_ok g.1 (alive_prv g.2) (ha f (mem_head hf)) (ha l (mem_last hl)) (by rintro rfl; exact hd' y (mem_head hf) yin)
  exact ⟨h', e', ring_links r' pm hM h0 hd' hf hl rfl hy hk⟩

/-- `link_nodes_at_back` -/
theorem ring_back {h : Heap α} {hd : Ptr} {A M : List Ptr} {f l : Ptr} (r : Ring h hd A) (pm : Path h M) (hM : M.Nodup) (h0 : 0 ∉ M) (hd' : ∀ q ∈ M, q ∉ hd :: A)
    (ha : ∀ q ∈ M, vl h q ≠ none) (hf : M.head? = some f) (hl : M.getLast? = some l) :
    ∃ h', linkBack hd f l h = some h' ∧ Ring h' hd (A ++ M) ∧ (∀ q, vl h' q = vl h q) ∧ ∀ q, q ∉ hd :: (A ++ M) → h' q = h q := by
  obtain ⟨x, hx⟩ : ∃ x, (hd :: A).getLast? = some x := ⟨_, List.getLast?_eq_some_getLast (by simp)⟩
  have r' : Ring h hd (A ++ []) := by simpa using r
  have g := r'.gap (y := hd) hx rfl
  obtain ⟨h', e', hk⟩ := linkBack_ok g.2 (alive_nxt g.1) (ha f (mem_head hf)) (ha l (mem_last hl))
  have := ring_links r' pm hM h0 (by simpa using hd') hf hl hx rfl hk
  simp only [List.append_nil] at this
  exact ⟨h', e', this⟩

end Verif.DList
