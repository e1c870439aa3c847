import Verif.Props.Hash

/-! # The hash table: erasing a range, equal ranges -/

namespace Verif.Hash

variable {K V F : Type} {c : Cfg K V F}

theorem dropWhile_remove {α : Type} (p : α → Bool) (a r : List α) (y : α) (h : ∀ z ∈ (a ++ y :: r).dropWhile p, p z = false) :
    ∀ z ∈ (a ++ r).dropWhile p, p z = false := by
  induction a with
  | nil =>
    intro z hz
    simp only [List.nil_append, List.dropWhile_cons] at h hz
    by_cases hy : p y = true
    · rw [if_pos hy] at h; exact h z hz
    · rw [if_neg hy] at h; exact h z (List.mem_cons_of_mem _ ((List.dropWhile_sublist _).mem hz))
  | cons w a ih =>
    intro z hz
    simp only [List.cons_append, List.dropWhile_cons] at h hz
    by_cases hw : p w = true
    · rw [if_pos hw] at h hz; exact ih h z hz
    · rw [if_neg hw] at h hz
      refine h z ?_
      rcases List.mem_cons.1 hz with rfl | hz
      · simp
      · rcases List.mem_append.1 hz with hz | hz
        · simp [hz]
        · simp [hz]

theorem grouped_remove {a r : List (Node V)} {y : Node V} (h : Grouped c (a ++ y :: r)) : Grouped c (a ++ r) := by
  induction a with
  | nil => exact h.2
  | cons w a ih => exact ⟨dropWhile_remove _ a r y h.1, ih h.2⟩

theorem grouped_removeAll {a mid r : List (Node V)} (h : Grouped c (a ++ mid ++ r)) : Grouped c (a ++ r) := by
  induction mid with
  | nil => simpa using h
  | cons y mid ih =>
    apply ih
    rw [List.append_assoc] at h ⊢
    exact grouped_remove h

theorem cutAt_ok (a b : List (Node V)) (h : ((a ++ b).map Node.id).Nodup) : cutAt (a ++ b) (b.head?.map Node.id) = some (a, b) := by
  induction a with
  | nil =>
    rcases b with _ | ⟨y, b⟩
    · rfl
    · show (if some y.id = some y.id then _ else _) = _
      rw [if_pos rfl]
  | cons x a ih =>
    have hx : b.head?.map Node.id ≠ some x.id := by
      rcases b with _ | ⟨y, b⟩
      · simp
      · intro e
        have e' : y.id = x.id := by simpa using e
        simp only [List.cons_append, List.map_cons, List.nodup_cons] at h
        apply h.1
        rw [← e']; simp
    show (if b.head?.map Node.id = some x.id then _ else (cutAt (a ++ b) (b.head?.map Node.id)).map _) = _
    rw [if_neg hx, ih (by simp only [List.cons_append, List.map_cons, List.nodup_cons] at h; exact h.2)]
    rfl

/-- `erase_bucket` removes a stretch of one chain -/
theorem eraseBucket_ok {t : Table V F} {m : Mem} {fr : List ℕ} (h : Inv c t m fr) (n : ℕ) (a mid d : List (Node V))
    (hb : t.buckets[n]? = some (a ++ mid ++ d)) :
    ∃ m', eraseBucket t m n ((mid ++ d).head?.map Node.id) (d.head?.map Node.id) =
        some ({ t with buckets := t.buckets.set n (a ++ d), size := t.size - mid.length }, m') ∧
      Inv c { t with buckets := t.buckets.set n (a ++ d), size := t.size - mid.length } m' fr ∧
      (∀ p, p ∈ m'.live ↔ p ∈ m.live ∧ p ∉ mid.map Node.id) := by
  obtain ⟨rest, h1, h2, -⟩ := flatten_split _ _ _ hb
  have hperm : t.nodes.Perm (mid ++ (a ++ d ++ rest)) := by
    refine h1.trans ?_
    rw [List.append_assoc, List.append_assoc, List.append_assoc]
    exact List.perm_append_comm_assoc _ _ _
  have hids : (mid.map Node.id ++ ((a ++ d ++ rest).map Node.id ++ fr)).Nodup := by
    rw [← List.append_assoc, ← List.map_append]
    exact ((hperm.map Node.id).append_right fr).nodup_iff.1 h.ids
  have hlive : ∀ p ∈ mid.map Node.id ++ ((a ++ d ++ rest).map Node.id ++ fr), p ∈ m.live := by
    rw [← List.append_assoc, ← List.map_append]
    exact fun p hp => h.live p (((hperm.map Node.id).append_right fr).mem_iff.2 hp)
  have hchain : ((a ++ mid ++ d).map Node.id).Nodup := by
    have := (h1.map Node.id).nodup_iff.1 h.nodupIds
    rw [List.map_append, List.nodup_append] at this
    exact this.1
  obtain ⟨m', g1, g2, g3, g4, g5⟩ := destroyAll_ok mid m _ hids hlive h.fresh h.nd
  refine ⟨m', ?_, h.setBucket hb (h2 (a ++ d)) ?_ (List.nodup_append.1 hids).2.1 g2 g3 g4 _ ?_, g5⟩
  · show (t.buckets[n]?).bind _ = _
    rw [hb]
    show (cutAt (a ++ mid ++ d) ((mid ++ d).head?.map Node.id)).bind _ = _
    rw [List.append_assoc] at hchain ⊢
    rw [cutAt_ok a (mid ++ d) hchain]
    show (cutAt (mid ++ d) (d.head?.map Node.id)).bind _ = _
    rw [cutAt_ok mid d (by rw [List.map_append, List.nodup_append] at hchain; exact hchain.2.1)]
    show (m.destroyAll mid).bind _ = _
    rw [g1]; rfl
  · intro x hx
    refine h.slot _ _ hb x ?_
    rcases List.mem_append.1 hx with hx | hx <;> simp [hx]
  · rw [h.sz, hperm.length_eq, List.length_append]; omega

theorem set_mid {α : Type} (l r : List α) (x y : α) : (l ++ x :: r).set l.length y = l ++ y :: r := by
  induction l with
  | nil => rfl
  | cons z l ih => show z :: ((l ++ x :: r).set l.length y) = _; rw [ih]; rfl

/-- grouping stays -/
def KeepsGrp (c : Cfg K V F) (t t' : Table V F) : Prop := Grp c t → Grp c t'

theorem keeps_set {t : Table V F} {n : ℕ} {a mid d : List (Node V)} {s : ℕ} (hb : t.buckets[n]? = some (a ++ mid ++ d)) :
    KeepsGrp c t { t with buckets := t.buckets.set n (a ++ d), size := s } :=
  fun hg => grp_set hg (grouped_removeAll (hg _ (List.mem_of_getElem? hb)))

/-- the loop over the buckets between two places empties them -/
theorem eraseBetween_ok (last : ℕ) (fuel : ℕ) (n : ℕ) {t : Table V F} {m : Mem} {fr : List ℕ} (h : Inv c t m fr) (hn : n ≤ last) (hl : last ≤ t.buckets.length)
    (hf : last - n ≤ fuel) :
    ∃ t' m', eraseBetween last fuel n t m = some (t', m') ∧ Inv c t' m' fr ∧ (t'.buckets.take last).flatten = (t.buckets.take n).flatten ∧
      t'.buckets.drop last = t.buckets.drop last ∧ t'.bsize = t.bsize ∧ t'.mlf = t.mlf ∧ KeepsGrp c t t' := by
  induction fuel generalizing n t m with
  | zero =>
    have : n = last := by omega
    subst this
    exact ⟨t, m, rfl, h, rfl, rfl, rfl, rfl, id⟩
  | succ k ih =>
    by_cases hlt : n < last
    · have hnb : n < t.buckets.length := by omega
      have hb : t.buckets[n]? = some ([] ++ t.buckets[n] ++ []) := by simp [List.getElem?_eq_getElem hnb]
      obtain ⟨m1, g1, g2, -⟩ := eraseBucket_ok h n [] t.buckets[n] [] hb
      have hlen : ({ t with buckets := t.buckets.set n ([] ++ []), size := t.size - t.buckets[n].length } : Table V F).buckets.length = t.buckets.length := by
        simp
      obtain ⟨t', m', e1, e2, e3, e4, e5, e6, e7⟩ := ih (n + 1) g2 (by omega) (by rw [hlen]; exact hl) (by omega)
      refine ⟨t', m', ?_, e2, ?_, ?_, e5, e6, fun hg => e7 (keeps_set hb hg)⟩
      · show (if n < last then _ else _) = _
        rw [if_pos hlt]
        show (t.buckets[n]?).bind _ = _
        rw [List.getElem?_eq_getElem hnb]
        show (eraseBucket t m n ((t.buckets[n]).head?.map Node.id) none).bind _ = _
        have g1' : eraseBucket t m n ((t.buckets[n]).head?.map Node.id) none = some ({ t with buckets := t.buckets.set n ([] ++ []), size := t.size - t.buckets[n].length }, m1) := by
          have := g1
          rw [List.append_nil] at this
          exact this
        rw [g1']; exact e1
      · rw [e3]
        show ((t.buckets.set n []).take (n + 1)).flatten = _
        rw [List.take_set, List.take_succ_eq_append_getElem hnb]
        have hl' : (t.buckets.take n).length = n := by rw [List.length_take]; omega
        have hsm := set_mid (t.buckets.take n) [] t.buckets[n] []
        rw [hl'] at hsm
        rw [hsm]
        simp
      · rw [e4]
        show (t.buckets.set n []).drop last = _
        rw [List.drop_set_of_lt hlt]
    · have : n = last := by omega
      subst this
      refine ⟨t, m, ?_, h, rfl, rfl, rfl, rfl, id⟩
      show (if n < n then _ else _) = _
      rw [if_neg (by omega)]

theorem bucketOf_at {t : Table V F} {m : Mem} {fr : List ℕ} (h : Inv c t m fr) {bs1 bs2 : List (List (Node V))} {a r : List (Node V)} {y : Node V}
    (hb : t.buckets = bs1 ++ (a ++ y :: r) :: bs2) : bucketOf c t (some y.id) = some bs1.length := by
  have hd := deref_at hb h.nodupIds
  have hi : t.buckets[bs1.length]? = some (a ++ y :: r) := by rw [hb]; simp
  have hs := h.slot _ _ hi y (by simp)
  show (deref t y.id).bind _ = _
  rw [hd]
  show hashIn c (c.key y.val) t.bsize = _
  unfold hashIn
  rw [if_neg (by have := h.pos; omega), hs]

theorem nodes_split {t : Table V F} (n : ℕ) : t.nodes = (t.buckets.take n).flatten ++ (t.buckets.drop n).flatten := by
  unfold Table.nodes
  rw [← List.flatten_append, List.take_append_drop]

/-- C89/C90: `erase(first, last)` removes exactly the elements of the range, for any range of the iteration, over any number of buckets; the others keep their order -/
theorem c89_erase_range {t : Table V F} {m : Mem} {fr : List ℕ} (h : Inv c t m fr) (pre mid post : List (Node V)) (hn : t.nodes = pre ++ mid ++ post) :
    ∃ t' m', eraseRange c t m ((mid ++ post).head?.map Node.id) (post.head?.map Node.id) = some (t', m') ∧ Inv c t' m' fr ∧ t'.nodes = pre ++ post ∧
      t'.mlf = t.mlf ∧ KeepsGrp c t t' := by
  rcases mid with _ | ⟨y, mid⟩
  · refine ⟨t, m, ?_, h, by simpa using hn, rfl, id⟩
    show (if post.head?.map Node.id = post.head?.map Node.id then _ else _) = _
    rw [if_pos rfl]
  have hne := head_ne h hn
  obtain ⟨bs1, a, r, bs2, hb, hpre, hmp⟩ := flatten_at _ pre (mid ++ post) y (by rw [show t.buckets.flatten = t.nodes from rfl, hn]; simp)
  have hfb := bucketOf_at h hb
  have hi : t.buckets[bs1.length]? = some (a ++ y :: r) := by rw [hb]; simp
  have hblen : t.buckets.length = bs1.length + 1 + bs2.length := by rw [hb]; simp; omega
  have htake : t.buckets.take bs1.length = bs1 := by rw [hb]; simp
  have hdrop : t.buckets.drop (bs1.length + 1) = bs2 := by
    rw [hb, List.drop_append, List.drop_of_length_le (by omega)]; simp
  -- the first bucket is cut from `y` on
  have hcut := eraseBucket_ok h bs1.length a (y :: r) [] (by rw [hi]; simp)
  obtain ⟨m1, c1, c2, -⟩ := hcut
  rw [List.append_nil, List.append_nil] at c1
  rw [List.append_nil] at c2
  have hbs : ∀ n, bs1.length < n → (t.buckets.set bs1.length a).drop n = t.buckets.drop n := fun n hlt => List.drop_set_of_lt hlt
  have ht1 : (t.buckets.set bs1.length a).take (bs1.length + 1) = bs1 ++ [a] := by
    rw [List.take_set, hb]
    have : (bs1 ++ (a ++ y :: r) :: bs2).take (bs1.length + 1) = bs1 ++ [a ++ y :: r] := by
      rw [List.take_append, List.take_of_length_le (by omega)]; simp
    rw [this, set_mid]
  have hkeep1 : KeepsGrp c t { t with buckets := t.buckets.set bs1.length a, size := t.size - (y :: r).length } := by
    have := keeps_set (c := c) (t := t) (n := bs1.length) (a := a) (mid := y :: r) (d := []) (s := t.size - (y :: r).length) (by rw [hi]; simp)
    rw [List.append_nil] at this; exact this
  have hrun : ∀ lb, bucketOf c t (post.head?.map Node.id) = some lb →
      eraseRange c t m (((y :: mid) ++ post).head?.map Node.id) (post.head?.map Node.id) =
        if bs1.length = lb then eraseBucket t m bs1.length (some y.id) (post.head?.map Node.id)
        else (eraseBucket t m bs1.length (some y.id) none).bind fun s => (eraseBetween lb (lb - bs1.length) (bs1.length + 1) s.1 s.2).bind fun s =>
          if lb ≠ s.1.bsize then (s.1.buckets[lb]?).bind fun f => eraseBucket s.1 s.2 lb (f.head?.map Node.id) (post.head?.map Node.id) else some s := by
    intro lb hlb
    show (if some y.id = post.head?.map Node.id then _ else _) = _
    rw [if_neg hne]
    show (bucketOf c t (some y.id)).bind _ = _
    rw [hfb]
    show (bucketOf c t (post.head?.map Node.id)).bind _ = _
    rw [hlb]; rfl
  rcases post with _ | ⟨z, post⟩
  · -- to the end of the table
    have hlb : bucketOf c t (([] : List (Node V)).head?.map Node.id) = some t.buckets.length := by
      show some t.bsize = _; rw [h.len]
    rw [hrun _ hlb, if_neg (by omega)]
    obtain ⟨t2, m2, e1, e2, e3, e4, e5, e6, e7⟩ := eraseBetween_ok t.buckets.length (t.buckets.length - bs1.length) (bs1.length + 1) c2 (by omega)
      (by simp) (by omega)
    refine ⟨t2, m2, ?_, e2, ?_, e6, fun hg => e7 (hkeep1 hg)⟩
    · have c1' : eraseBucket t m bs1.length (some y.id) none = some ({ t with buckets := t.buckets.set bs1.length a, size := t.size - (y :: r).length }, m1) := c1
      rw [c1']
      show (eraseBetween _ _ _ _ _).bind _ = _
      rw [e1]
      show (if t.buckets.length ≠ t2.bsize then _ else _) = _
      rw [if_neg (by rw [e5]; show ¬ (t.buckets.length ≠ t.bsize); rw [h.len]; simp)]
    · rw [nodes_split t.buckets.length, e3, e4]
      show ((t.buckets.set bs1.length a).take (bs1.length + 1)).flatten ++ ((t.buckets.set bs1.length a).drop t.buckets.length).flatten = _
      rw [ht1, hbs _ (by omega), List.drop_length]
      rw [hpre]; simp
  · obtain ⟨bs1', a', r', bs2', hb', hpre', hpost'⟩ := flatten_at _ (pre ++ y :: mid) post z (by rw [show t.buckets.flatten = t.nodes from rfl, hn])
    have hlb : bucketOf c t ((z :: post).head?.map Node.id) = some bs1'.length := bucketOf_at h hb'
    have hi' : t.buckets[bs1'.length]? = some (a' ++ z :: r') := by rw [hb']; simp
    have htake' : t.buckets.take bs1'.length = bs1' := by rw [hb']; simp
    have hdrop' : t.buckets.drop (bs1'.length + 1) = bs2' := by
      rw [hb', List.drop_append, List.drop_of_length_le (by omega)]; simp
    rw [hrun _ hlb]
    -- positions
    have hord : bs1.length ≤ bs1'.length := by
      by_contra hcon
      have h1 : bs1'.length + 1 ≤ bs1.length := by omega
      -- then all of `pre ++ y :: mid` before `z` lies in buckets before `bs1`, but `pre` has all of them
      have h2 : (t.buckets.take (bs1'.length + 1)).flatten.length ≤ (t.buckets.take bs1.length).flatten.length := by
        have : t.buckets.take (bs1'.length + 1) <+: t.buckets.take bs1.length := List.take_prefix_take_left h1
        obtain ⟨u, hu⟩ := this
        rw [← hu, List.flatten_append, List.length_append]; omega
      have h3 : (t.buckets.take (bs1'.length + 1)).flatten = bs1'.flatten ++ (a' ++ z :: r') := by
        rw [hb', List.take_append, List.take_of_length_le (by omega)]; simp
      rw [h3, htake] at h2
      have h4 := congrArg List.length hpre'
      have h5 := congrArg List.length hpre
      simp only [List.length_append, List.length_cons] at h2 h4 h5
      omega
    by_cases heq : bs1.length = bs1'.length
    · rw [if_pos heq]
      have hch : a ++ y :: r = a' ++ z :: r' := by
        rw [← heq] at hi'; rw [hi] at hi'; exact Option.some.inj hi'
      have hbb : bs1 = bs1' := by rw [← htake, heq, htake']
      subst hbb
      have ha' : a' = a ++ y :: mid := by
        have : bs1.flatten ++ a' = bs1.flatten ++ (a ++ y :: mid) := by rw [← hpre', hpre]; simp
        exact List.append_cancel_left this
      rw [ha'] at hi' hch
      obtain ⟨m2, e1, e2, -⟩ := eraseBucket_ok h bs1.length a (y :: mid) (z :: r') hi'
      refine ⟨_, m2, e1, e2, ?_, rfl, keeps_set hi'⟩
      show (t.buckets.set bs1.length (a ++ z :: r')).flatten = _
      have : t.buckets.set bs1.length (a ++ z :: r') = bs1 ++ (a ++ z :: r') :: bs2 := by
        rw [hb, set_mid]
      rw [this, hpre, hpost']
      have hb2 : bs2' = bs2 := by rw [← hdrop', hdrop]
      rw [hb2]; simp
    · rw [if_neg heq]
      have hlt : bs1.length < bs1'.length := by omega
      have hlen' : bs1'.length < t.buckets.length := by rw [hb']; simp
      obtain ⟨t2, m2, e1, e2, e3, e4, e5, e6, e7⟩ := eraseBetween_ok bs1'.length (bs1'.length - bs1.length) (bs1.length + 1) c2 (by omega)
        (by simp; omega) (by omega)
      have hdr : t2.buckets.drop bs1'.length = (a' ++ z :: r') :: bs2' := by
        rw [e4]
        show (t.buckets.set bs1.length a).drop bs1'.length = _
        rw [hbs _ hlt]
        conv_lhs => rw [hb']
        simp
      have hi2 : t2.buckets[bs1'.length]? = some ([] ++ a' ++ z :: r') := by
        have := congrArg (fun l => l[0]?) hdr
        simpa [List.getElem?_drop] using this
      obtain ⟨m3, k1, k2, -⟩ := eraseBucket_ok e2 bs1'.length [] a' (z :: r') hi2
      refine ⟨_, m3, ?_, k2, ?_, e6, fun hg => keeps_set hi2 (e7 (hkeep1 hg))⟩
      · have c1' : eraseBucket t m bs1.length (some y.id) none = some ({ t with buckets := t.buckets.set bs1.length a, size := t.size - (y :: r).length }, m1) := c1
        rw [c1']
        show (eraseBetween _ _ _ _ _).bind _ = _
        rw [e1]
        show (if bs1'.length ≠ t2.bsize then _ else _) = _
        rw [if_pos (by rw [e5]; show bs1'.length ≠ t.bsize; rw [h.len]; omega)]
        show (t2.buckets[bs1'.length]?).bind _ = _
        rw [hi2]
        exact k1
      · have hlt2 : bs1'.length < t2.buckets.length := by
          rw [← e2.len, e5]; show bs1'.length < t.bsize; rw [h.len]; exact hlen'
        show (t2.buckets.set bs1'.length ([] ++ z :: r')).flatten = _
        rw [List.set_eq_take_append_cons_drop, if_pos hlt2, List.flatten_append, e3]
        have hd2 : t2.buckets.drop (bs1'.length + 1) = bs2' := by
          rw [← List.drop_drop, hdr]; rfl
        rw [hd2]
        show ((t.buckets.set bs1.length a).take (bs1.length + 1)).flatten ++ _ = _
        rw [ht1, hpre, hpost']
        simp

end Verif.Hash
