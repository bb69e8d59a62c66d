import Verif.Sort
import Verif.ListHeapProps

set_option autoImplicit false

/-! # Properties of sorting (C61) -/

namespace Minim.LH

/-! ### specification -/

/-- Specification: `lt` is a strict weak order on the elements of a list. -/
structure SWO (lt : V → V → Bool) (xs : List V) : Prop where
  asymm : ∀ a ∈ xs, ∀ b ∈ xs, lt a b = true → lt b a = false
  cotrans : ∀ a ∈ xs, ∀ b ∈ xs, ∀ c ∈ xs, lt a c = true → lt a b = true ∨ lt b c = true

/-- Specification: neither of two elements comes before the other. -/
def equiv (lt : V → V → Bool) (e x : V) : Bool := !lt e x && !lt x e

/-- Specification: `ys` is `xs` sorted: the same elements, ascending, and equivalent elements in the order they had. -/
structure SortOf (lt : V → V → Bool) (xs ys : List V) : Prop where
  perm : ys.Perm xs
  sorted : ys.Pairwise (fun x y => lt y x = false)
  stable : ∀ e ∈ xs, ys.filter (equiv lt e) = xs.filter (equiv lt e)

/-! ### the algorithm on lists of elements -/

/-- merging as a function -/
def mergeF (lt : V → V → Bool) : List (Nat × V) → List (Nat × V) → List (Nat × V)
  | [], bs => bs
  | as, [] => as
  | (a, x) :: as, (b, y) :: bs => if lt y x then (b, y) :: mergeF lt ((a, x) :: as) bs else (a, x) :: mergeF lt as ((b, y) :: bs)
termination_by as bs => as.length + bs.length

theorem mergeF_perm (lt : V → V → Bool) : ∀ as bs : List (Nat × V), (mergeF lt as bs).Perm (as ++ bs)
  | [], bs => by rw [mergeF]; exact .refl _
  | (a, x) :: as, [] => by rw [mergeF]; simp; simp
  | (a, x) :: as, (b, y) :: bs => by
    rw [mergeF]
    split
    · exact ((mergeF_perm lt ((a, x) :: as) bs).cons _).trans List.perm_middle.symm
    · exact (mergeF_perm lt as ((b, y) :: bs)).cons _
termination_by as bs => as.length + bs.length

/-- merging only elements -/
def mergeV (lt : V → V → Bool) : List V → List V → List V
  | [], bs => bs
  | as, [] => as
  | x :: as, y :: bs => if lt y x then y :: mergeV lt (x :: as) bs else x :: mergeV lt as (y :: bs)
termination_by as bs => as.length + bs.length

theorem mergeF_map (lt : V → V → Bool) : ∀ as bs : List (Nat × V), (mergeF lt as bs).map Prod.snd = mergeV lt (as.map Prod.snd) (bs.map Prod.snd)
  | [], bs => by rw [mergeF, List.map_nil, mergeV]
  | (a, x) :: as, [] => by simp [mergeF, mergeV]
  | (a, x) :: as, (b, y) :: bs => by
    rw [mergeF, List.map_cons, List.map_cons, mergeV]
    split
    · rw [List.map_cons, mergeF_map lt ((a, x) :: as) bs]; rfl
    · rw [List.map_cons, mergeF_map lt as ((b, y) :: bs)]; rfl
termination_by as bs => as.length + bs.length

theorem mergeV_perm (lt : V → V → Bool) : ∀ as bs : List V, (mergeV lt as bs).Perm (as ++ bs)
  | [], bs => by rw [mergeV]; exact .refl _
  | x :: as, [] => by rw [mergeV]; simp; simp
  | x :: as, y :: bs => by
    rw [mergeV]
    split
    · exact ((mergeV_perm lt (x :: as) bs).cons _).trans List.perm_middle.symm
    · exact (mergeV_perm lt as (y :: bs)).cons _
termination_by as bs => as.length + bs.length

/-- sorting as a function -/
def sortF (lt : V → V → Bool) : List V → List V
  | [] => []
  | [x] => [x]
  | [x, y] => if lt y x then [y, x] else [x, y]
  | x :: y :: z :: xs =>
    let j := (xs.length + 3) / 2
    mergeV lt (sortF lt ((x :: y :: z :: xs).take j)) (sortF lt ((x :: y :: z :: xs).drop j))
termination_by xs => xs.length
decreasing_by all_goals simp; omega

theorem sortF_perm (lt : V → V → Bool) : ∀ xs : List V, (sortF lt xs).Perm xs
  | [] => by rw [sortF]
  | [x] => by rw [sortF]
  | [x, y] => by rw [sortF]; split; exacts [.swap _ _ _, .refl _]
  | x :: y :: z :: xs => by
    rw [sortF]
    refine (mergeV_perm _ _ _).trans ?_
    refine ((sortF_perm lt _).append (sortF_perm lt _)).trans ?_
    rw [List.take_append_drop]
termination_by xs => xs.length
decreasing_by all_goals simp; omega

section order
variable {lt : V → V → Bool}

theorem SWO.sub {xs ys : List V} (h : SWO lt xs) (hs : ∀ y ∈ ys, y ∈ xs) : SWO lt ys :=
  ⟨fun a ha b hb => h.asymm a (hs a ha) b (hs b hb), fun a ha b hb c hc => h.cotrans a (hs a ha) b (hs b hb) c (hs c hc)⟩

theorem mergeV_sorted : ∀ as bs : List V, SWO lt (as ++ bs) → as.Pairwise (fun x y => lt y x = false) → bs.Pairwise (fun x y => lt y x = false) →
    (mergeV lt as bs).Pairwise (fun x y => lt y x = false)
  | [], bs, _, _, hb => by rw [mergeV]; exact hb
  | x :: as, [], _, ha, _ => by rw [mergeV]; exact ha; simp
  | x :: as, y :: bs, h, ha, hb => by
    rw [mergeV]
    have hx := List.pairwise_cons.1 ha
    have hy := List.pairwise_cons.1 hb
    split
    · rename_i hlt
      refine List.pairwise_cons.2 ⟨fun z hz => ?_, mergeV_sorted (x :: as) bs (h.sub (by simp; tauto)) ha hy.2⟩
      have hz := (mergeV_perm lt _ _).mem_iff.1 hz
      rcases List.mem_append.1 hz with hz | hz
      · have hzm : z ∈ x :: as ++ y :: bs := by simp at hz ⊢; tauto
        have hzx : lt z x = false := by
          rcases List.mem_cons.1 hz with rfl | hz
          · cases hh : lt z z with
            | false => rfl
            | true => rw [h.asymm z hzm z hzm hh] at hh; cases hh
          · exact hx.1 z hz
        rcases h.cotrans y (by simp) z hzm x (by simp) hlt with hh | hh
        · exact h.asymm y (by simp) z hzm hh
        · rw [hzx] at hh; cases hh
      · exact hy.1 z hz
    · rename_i hlt
      refine List.pairwise_cons.2 ⟨fun z hz => ?_, mergeV_sorted as (y :: bs) (h.sub (by simp; tauto)) hx.2 hb⟩
      have hz := (mergeV_perm lt _ _).mem_iff.1 hz
      rcases List.mem_append.1 hz with hz | hz
      · exact hx.1 z hz
      · have hzm : z ∈ x :: as ++ y :: bs := by simp at hz ⊢; tauto
        rcases List.mem_cons.1 hz with rfl | hz
        · simpa using hlt
        · cases hh : lt z x with
          | false => rfl
          | true =>
            rcases h.cotrans z hzm y (by simp) x (by simp) hh with h1 | h1
            · rw [hy.1 z hz] at h1; cases h1
            · exact absurd h1 hlt
termination_by as bs => as.length + bs.length

theorem mergeV_stable : ∀ as bs : List V, SWO lt (as ++ bs) → as.Pairwise (fun x y => lt y x = false) → bs.Pairwise (fun x y => lt y x = false) →
    ∀ e, SWO lt (e :: (as ++ bs)) → (mergeV lt as bs).filter (equiv lt e) = as.filter (equiv lt e) ++ bs.filter (equiv lt e)
  | [], bs, _, _, _, e, _ => by rw [mergeV]; rfl
  | x :: as, [], _, _, _, e, _ => by rw [mergeV]; simp; simp
  | x :: as, y :: bs, h, ha, hb, e, he => by
    rw [mergeV]
    have hx := List.pairwise_cons.1 ha
    have hy := List.pairwise_cons.1 hb
    split
    · rename_i hlt
      rw [List.filter_cons, mergeV_stable (x :: as) bs (h.sub (by simp; tauto)) ha hy.2 e (he.sub (by simp; tauto)), List.filter_cons (x := y)]
      cases hye : equiv lt e y with
      | false => simp
      | true =>
        have hnil : (x :: as).filter (equiv lt e) = [] := by
          rw [List.filter_eq_nil_iff]
          intro z hz hze
          have hzm : z ∈ e :: (x :: as ++ y :: bs) := by simp at hz ⊢; tauto
          have hzx : lt z x = false := by
            rcases List.mem_cons.1 hz with rfl | hz
            · cases hh : lt z z with
              | false => rfl
              | true => rw [he.asymm z hzm z hzm hh] at hh; cases hh
            · exact hx.1 z hz
          simp only [equiv, Bool.and_eq_true, Bool.not_eq_true'] at hye hze
          rcases he.cotrans y (by simp) z hzm x (by simp) hlt with h1 | h1
          · rcases he.cotrans y (by simp) e (by simp) z hzm h1 with h2 | h2
            · rw [hye.2] at h2; cases h2
            · rw [hze.1] at h2; cases h2
          · rw [hzx] at h1; cases h1
        rw [hnil]
        rfl
    · rw [List.filter_cons, mergeV_stable as (y :: bs) (h.sub (by simp; tauto)) hx.2 hb e (he.sub (by simp; tauto)), List.filter_cons (x := x)]
      split <;> rfl
termination_by as bs => as.length + bs.length

theorem SWO.perm_cons {e : V} {xs ys : List V} (h : SWO lt xs) (he : e ∈ xs) (hs : ∀ y ∈ ys, y ∈ xs) : SWO lt (e :: ys) :=
  h.sub fun y hy => by
    rcases List.mem_cons.1 hy with rfl | hy
    · exact he
    · exact hs y hy

theorem sortF_spec : ∀ xs : List V, SWO lt xs → (sortF lt xs).Pairwise (fun x y => lt y x = false) ∧
    ∀ e, SWO lt (e :: xs) → (sortF lt xs).filter (equiv lt e) = xs.filter (equiv lt e)
  | [], _ => by rw [sortF]; exact ⟨.nil, fun _ _ => rfl⟩
  | [x], _ => by rw [sortF]; exact ⟨List.pairwise_singleton _ _, fun _ _ => rfl⟩
  | [x, y], h => by
    rw [sortF]
    split
    · rename_i hlt
      refine ⟨by simp [h.asymm y (by simp) x (by simp) hlt], fun e he => ?_⟩
      simp only [List.filter_cons, List.filter_nil]
      cases hx : equiv lt e x <;> cases hy : equiv lt e y <;> simp
      simp only [equiv, Bool.and_eq_true, Bool.not_eq_true'] at hx hy
      rcases he.cotrans y (by simp) e (by simp) x (by simp) hlt with h1 | h1
      · rw [hy.2] at h1; cases h1
      · rw [hx.1] at h1; cases h1
    · rename_i hlt
      exact ⟨by simpa using hlt, fun _ _ => rfl⟩
  | x :: y :: z :: xs, h => by
    rw [sortF]
    have hp := (sortF_perm lt ((x :: y :: z :: xs).take ((xs.length + 3) / 2)))
    have hq := (sortF_perm lt ((x :: y :: z :: xs).drop ((xs.length + 3) / 2)))
    have hm : ∀ w, w ∈ sortF lt ((x :: y :: z :: xs).take ((xs.length + 3) / 2)) ++ sortF lt ((x :: y :: z :: xs).drop ((xs.length + 3) / 2)) → w ∈ x :: y :: z :: xs := by
      intro w hw
      have := (hp.append hq).mem_iff.1 hw
      rwa [List.take_append_drop] at this
    obtain ⟨a1, a2⟩ := sortF_spec _ (h.sub (ys := (x :: y :: z :: xs).take ((xs.length + 3) / 2)) fun w hw => List.mem_of_mem_take hw)
    obtain ⟨b1, b2⟩ := sortF_spec _ (h.sub (ys := (x :: y :: z :: xs).drop ((xs.length + 3) / 2)) fun w hw => List.mem_of_mem_drop hw)
    refine ⟨mergeV_sorted _ _ (h.sub hm) a1 b1, fun e he => ?_⟩
    rw [mergeV_stable _ _ (h.sub hm) a1 b1 e (he.sub fun w hw => by
      rcases List.mem_cons.1 hw with rfl | hw
      · simp
      · exact List.mem_cons_of_mem _ (hm w hw))]
    rw [a2 e (he.sub fun w hw => by
        rcases List.mem_cons.1 hw with rfl | hw
        · simp
        · exact List.mem_cons_of_mem _ (List.mem_of_mem_take hw)),
      b2 e (he.sub fun w hw => by
        rcases List.mem_cons.1 hw with rfl | hw
        · simp
        · exact List.mem_cons_of_mem _ (List.mem_of_mem_drop hw)),
      ← List.filter_append, List.take_append_drop]
termination_by xs => xs.length
decreasing_by all_goals simp; omega

end order

/-! ### the algorithm on the heap -/

/-- the cells (address and element) met when following the list from `v` until `w` -/
def Chain (h : Heap) : V → List (Nat × V) → V → Prop
  | v, [], w => v = w
  | v, (a, x) :: cs, w => v = .ptr a ∧ ∃ d, h[a]? = some (.pair x d) ∧ Chain h d cs w

theorem Chain.frame {h h' : Heap} : ∀ {cs : List (Nat × V)} {v w : V}, (∀ c ∈ cs.map Prod.fst, h'[c]? = h[c]?) → Chain h v cs w → Chain h' v cs w
  | [], _, _, _, hc => hc
  | (a, x) :: cs, _, _, hf, ⟨e, d, h1, h2⟩ => ⟨e, d, by rw [hf a (by simp), h1], Chain.frame (fun c hc => hf c (by simp at hc ⊢; tauto)) h2⟩

theorem Chain.isList {h : Heap} : ∀ {cs : List (Nat × V)} {v w : V}, Chain h v cs w → Seg 0 h v (cs.map Prod.snd) w
  | [], _, _, hc => hc
  | (a, x) :: cs, _, _, ⟨e, d, h1, h2⟩ => ⟨a, d, e, Nat.zero_le _, h1, Chain.isList h2⟩

theorem Chain.append {h : Heap} : ∀ {cs ds : List (Nat × V)} {v w : V}, Chain h v (cs ++ ds) w → ∃ u, Chain h v cs u ∧ Chain h u ds w
  | [], _, v, _, hc => ⟨v, rfl, hc⟩
  | (a, x) :: cs, ds, _, _, ⟨e, d, h1, h2⟩ => by
    obtain ⟨u, h3, h4⟩ := Chain.append (cs := cs) h2
    exact ⟨u, ⟨e, d, h1, h3⟩, h4⟩

theorem Chain.concat {h : Heap} : ∀ {cs ds : List (Nat × V)} {v u w : V}, Chain h v cs u → Chain h u ds w → Chain h v (cs ++ ds) w
  | [], _, v, _, _, hc, hd => by cases hc; exact hd
  | (a, x) :: cs, ds, _, _, _, ⟨e, d, h1, h2⟩, hd => ⟨e, d, h1, Chain.concat h2 hd⟩

theorem prefix_set {h0 h : Heap} {a : Nat} {o : Obj} (hp : h0 <+: h) (ha : h0.length ≤ a) : h0 <+: h.set a o := by
  obtain ⟨t, rfl⟩ := hp
  rw [List.set_append_right _ _ ha]
  exact List.prefix_append _ _

theorem lt_of_getElem? {h : Heap} {a : Nat} {o : Obj} (e : h[a]? = some o) : a < h.length := (List.getElem?_eq_some_iff.1 e).1

theorem pCar_eq {h : Heap} {a : Nat} {x d : V} (e : h[a]? = some (.pair x d)) : pCar h (.ptr a) = .ok x := by simp [pCar, pairAt, e]
theorem pCdr_eq {h : Heap} {a : Nat} {x d : V} (e : h[a]? = some (.pair x d)) : pCdr h (.ptr a) = .ok d := by simp [pCdr, pairAt, e]
theorem pSetCar_eq {h : Heap} {a : Nat} {x d y : V} (e : h[a]? = some (.pair x d)) : pSetCar h (.ptr a) y = .ok (h.set a (.pair y d)) := by simp [pSetCar, e]
theorem pSetCdr_eq {h : Heap} {a : Nat} {x d y : V} (e : h[a]? = some (.pair x d)) : pSetCdr h (.ptr a) y = .ok (h.set a (.pair x y)) := by simp [pSetCdr, e]

theorem set_self {h : Heap} {a : Nat} {o o' : Obj} (e : h[a]? = some o) : (h.set a o')[a]? = some o' := by
  simp [List.getElem?_set, lt_of_getElem? e]
theorem set_other {h : Heap} {a b : Nat} {o : Obj} (e : b ≠ a) : (h.set a o)[b]? = h[b]? := by
  rw [List.getElem?_set_ne (Ne.symm e)]

section heap
variable {less : Less} {lt : V → V → Bool} {h0 : Heap}

/-- the comparison procedure computes `lt` on the elements of two lists, whatever is allocated -/
def Cmp (less : Less) (lt : V → V → Bool) (h0 : Heap) (xs : List V) : Prop :=
  ∀ h', h0 <+: h' → ∀ x ∈ xs, ∀ y ∈ xs, less h' x y = .ok (lt x y)

theorem Cmp.sub {xs ys : List V} (h : Cmp less lt h0 xs) (hs : ∀ y ∈ ys, y ∈ xs) : Cmp less lt h0 ys :=
  fun h' hp x hx y hy => h h' hp x (hs x hx) y (hs y hy)

theorem mergeLoop_spec : ∀ (n : Nat) (ca cb : List (Nat × V)) (h : Heap) (va vb xr dr : V) (ra : Nat), ca ≠ [] → cb ≠ [] → Chain h va ca .null → Chain h vb cb .null →
    (ra :: (ca ++ cb).map Prod.fst).Nodup → h[ra]? = some (.pair xr dr) → (∀ c ∈ ra :: (ca ++ cb).map Prod.fst, h0.length ≤ c) → h0 <+: h →
    Cmp less lt h0 ((ca ++ cb).map Prod.snd) → ca.length + cb.length ≤ n →
    ∃ h', mergeLoop less n h (.ptr ra) va vb = .ok h' ∧ Chain h' (.ptr ra) ((ra, xr) :: mergeF lt ca cb) .null ∧ h'.length = h.length ∧ h0 <+: h' ∧
      ∀ c, c ∉ ra :: (ca ++ cb).map Prod.fst → h'[c]? = h[c]?
  | 0, [], _, _, _, _, _, _, _, hne, _, _, _, _, _, _, _, _, _ => absurd rfl hne
  | 0, _ :: _, _, _, _, _, _, _, _, _, _, _, _, _, _, _, _, _, hn => by simp at hn
  | n + 1, [], _, _, _, _, _, _, _, hne, _, _, _, _, _, _, _, _, _ => absurd rfl hne
  | n + 1, _ :: _, [], _, _, _, _, _, _, _, hne, _, _, _, _, _, _, _, _ => absurd rfl hne
  | n + 1, (a, x) :: ca, (b, y) :: cb, h, va, vb, xr, dr, ra, _, _, hca, hcb, hnd, hr, hge, hp, hl, hn => by
    obtain ⟨rfl, da, ha1, ha2⟩ := hca
    obtain ⟨rfl, db, hb1, hb2⟩ := hcb
    have hnd0 := hnd
    simp only [List.map_append, List.map_cons, List.cons_append, List.nodup_cons, List.mem_cons, List.mem_append, not_or] at hnd
    obtain ⟨⟨hra, hrca, hrb, hrcb⟩, ⟨haca, hab, hacb⟩, hnd⟩ := hnd
    have hnd := List.nodup_append.1 hnd
    obtain ⟨nda, ndb, hdis⟩ := hnd
    have ndb' := List.nodup_cons.1 ndb
    have hbca : b ∉ ca.map Prod.fst := fun hh => hdis b hh b (by simp) rfl
    rw [mergeLoop, pCar_eq hb1, Res.ok_bind, pCar_eq ha1, Res.ok_bind, hl h hp y (by simp) x (by simp), Res.ok_bind, mergeF]
    cases hlt : lt y x with
    | true =>
      simp only [if_true]
      rw [pSetCdr_eq hr, Res.ok_bind]
      have hb1' : (h.set ra (.pair xr (.ptr b)))[b]? = some (.pair y db) := by rw [set_other (Ne.symm hrb), hb1]
      have ha1' : (h.set ra (.pair xr (.ptr b)))[a]? = some (.pair x da) := by rw [set_other (Ne.symm hra), ha1]
      have hr' : (h.set ra (.pair xr (.ptr b)))[ra]? = some (.pair xr (.ptr b)) := set_self hr
      have hca' : Chain (h.set ra (.pair xr (.ptr b))) (.ptr a) ((a, x) :: ca) .null :=
        ⟨rfl, da, ha1', ha2.frame fun c hc => set_other fun e => hrca (e ▸ hc)⟩
      have hcb' : Chain (h.set ra (.pair xr (.ptr b))) db cb .null := hb2.frame fun c hc => set_other fun e => hrcb (e ▸ hc)
      have hp' : h0 <+: h.set ra (.pair xr (.ptr b)) := prefix_set hp (hge ra (by simp))
      rw [pCdr_eq hb1', Res.ok_bind]
      cases cb with
      | nil =>
        cases hcb'
        rw [if_pos rfl, pSetCdr_eq hb1']
        refine ⟨_, rfl, ⟨rfl, .ptr b, ?_, rfl, .ptr a, set_self hb1', ?_⟩, by simp, prefix_set hp' (hge b (by simp)), ?_⟩
        · rw [set_other hrb, hr']
        · have : mergeF lt ((a, x) :: ca) [] = (a, x) :: ca := by simp [mergeF]
          rw [this]
          refine hca'.frame fun c hc => set_other fun e => ?_
          subst e
          simp only [List.map_cons, List.mem_cons] at hc
          rcases hc with rfl | hc
          · exact hab rfl
          · exact hbca hc
        · intro c hc
          simp only [List.map_append, List.map_cons, List.map_nil, List.cons_append, List.mem_cons, List.mem_append, not_or] at hc
          rw [set_other hc.2.2.2.1, set_other hc.1]
      | cons q cb =>
        have hd : db ≠ .null := by
          obtain ⟨e, _⟩ := hcb'
          rw [e]; simp
        rw [if_neg hd]
        obtain ⟨h', e1, ⟨e2, d, e3, e4⟩, e5, e6, e7⟩ := mergeLoop_spec n ((a, x) :: ca) (q :: cb) (h.set ra (.pair xr (.ptr b))) (.ptr a) db y db b (by simp) (by simp) hca' hcb'
          (by
            simp only [List.map_append, List.map_cons, List.cons_append, List.nodup_cons, List.mem_cons, List.mem_append, not_or] at ndb' hacb hdis ⊢
            refine ⟨⟨fun e => hab e.symm, hbca, ndb'.1.1, ndb'.1.2⟩, ⟨haca, hacb.1, hacb.2⟩, List.nodup_append.2 ⟨nda, List.nodup_cons.2 ndb'.2, fun c hc d hd => hdis c hc d (by simp at hd ⊢; tauto)⟩⟩)
          hb1' (fun c hc => hge c (by simp at hc ⊢; tauto)) hp' (hl.sub (by intro z hz; simp at hz ⊢; tauto)) (by simp at hn ⊢; omega)
        refine ⟨h', e1, ⟨rfl, .ptr b, ?_, e2, d, e3, e4⟩, by rw [e5]; simp, e6, fun c hc => ?_⟩
        · rw [e7 ra, hr']
          simp only [List.map_append, List.map_cons, List.cons_append, List.mem_cons, List.mem_append, not_or] at hrcb ⊢
          exact ⟨hrb, hra, hrca, hrcb.1, hrcb.2⟩
        · simp only [List.map_append, List.map_cons, List.cons_append, List.mem_cons, List.mem_append, not_or] at hc
          rw [e7 c, set_other hc.1]
          simp only [List.map_append, List.map_cons, List.cons_append, List.mem_cons, List.mem_append, not_or]
          exact ⟨hc.2.2.2.1, hc.2.1, hc.2.2.1, hc.2.2.2.2.1, hc.2.2.2.2.2⟩
    | false =>
      simp only [Bool.false_eq_true, if_false]
      rw [pSetCdr_eq hr, Res.ok_bind]
      have hb1' : (h.set ra (.pair xr (.ptr a)))[b]? = some (.pair y db) := by rw [set_other (Ne.symm hrb), hb1]
      have ha1' : (h.set ra (.pair xr (.ptr a)))[a]? = some (.pair x da) := by rw [set_other (Ne.symm hra), ha1]
      have hr' : (h.set ra (.pair xr (.ptr a)))[ra]? = some (.pair xr (.ptr a)) := set_self hr
      have hca' : Chain (h.set ra (.pair xr (.ptr a))) da ca .null := ha2.frame fun c hc => set_other fun e => hrca (e ▸ hc)
      have hcb' : Chain (h.set ra (.pair xr (.ptr a))) (.ptr b) ((b, y) :: cb) .null :=
        ⟨rfl, db, hb1', hb2.frame fun c hc => set_other fun e => hrcb (e ▸ hc)⟩
      have hp' : h0 <+: h.set ra (.pair xr (.ptr a)) := prefix_set hp (hge ra (by simp))
      rw [pCdr_eq ha1', Res.ok_bind]
      cases ca with
      | nil =>
        cases hca'
        rw [if_pos rfl, pSetCdr_eq ha1']
        refine ⟨_, rfl, ⟨rfl, .ptr a, ?_, rfl, .ptr b, set_self ha1', ?_⟩, by simp, prefix_set hp' (hge a (by simp)), ?_⟩
        · rw [set_other hra, hr']
        · rw [mergeF]
          refine hcb'.frame fun c hc => set_other fun e => ?_
          subst e
          simp only [List.map_cons, List.mem_cons] at hc
          rcases hc with rfl | hc
          · exact hab rfl
          · exact hacb hc
        · intro c hc
          simp only [List.map_append, List.map_cons, List.map_nil, List.cons_append, List.nil_append, List.mem_cons, List.mem_append, not_or] at hc
          rw [set_other hc.2.1, set_other hc.1]
      | cons q ca =>
        have hd : da ≠ .null := by
          obtain ⟨e, _⟩ := hca'
          rw [e]; simp
        rw [if_neg hd]
        obtain ⟨h', e1, ⟨e2, d, e3, e4⟩, e5, e6, e7⟩ := mergeLoop_spec n (q :: ca) ((b, y) :: cb) (h.set ra (.pair xr (.ptr a))) da (.ptr b) x da a (by simp) (by simp) hca' hcb'
          (List.nodup_cons.1 hnd0).2 ha1' (fun c hc => hge c (by simp at hc ⊢; tauto)) hp' (hl.sub (by intro z hz; simp at hz ⊢; tauto)) (by simp at hn ⊢; omega)
        refine ⟨h', e1, ⟨rfl, .ptr a, ?_, e2, d, e3, e4⟩, by rw [e5]; simp, e6, fun c hc => ?_⟩
        · rw [e7 ra, hr']
          exact (List.nodup_cons.1 hnd0).1
        · rw [e7 c (fun hh => hc (List.mem_cons_of_mem _ hh)), set_other]
          exact fun e => hc (e ▸ List.mem_cons_self)

theorem merge_spec {n : Nat} {ca cb : List (Nat × V)} {h : Heap} {va vb : V} (hca : Chain h va ca .null) (hcb : Chain h vb cb .null) (hnd : ((ca ++ cb).map Prod.fst).Nodup)
    (hge : ∀ c ∈ (ca ++ cb).map Prod.fst, h0.length ≤ c) (hp : h0 <+: h) (hl : Cmp less lt h0 ((ca ++ cb).map Prod.snd)) (hn : ca.length + cb.length ≤ n) :
    ∃ h' v, merge less n h va vb = .ok (h', v) ∧ Chain h' v (mergeF lt ca cb) .null ∧ h'.length = h.length ∧ h0 <+: h' ∧ ∀ c, c ∉ (ca ++ cb).map Prod.fst → h'[c]? = h[c]? := by
  cases ca with
  | nil =>
    cases hca
    exact ⟨h, vb, by simp [merge], by rw [mergeF]; exact hcb, rfl, hp, fun _ _ => rfl⟩
  | cons p ca =>
    obtain ⟨a, x⟩ := p
    cases cb with
    | nil =>
      cases hcb
      have hv := hca.1
      subst hv
      exact ⟨h, .ptr a, by simp [merge], by simpa [mergeF] using hca, rfl, hp, fun _ _ => rfl⟩
    | cons q cb =>
      obtain ⟨b, y⟩ := q
      have hca0 := hca
      have hcb0 := hcb
      obtain ⟨rfl, da, ha1, ha2⟩ := hca
      obtain ⟨rfl, db, hb1, hb2⟩ := hcb
      have hnd0 := hnd
      simp only [List.map_append, List.map_cons, List.cons_append, List.nodup_cons, List.mem_cons, List.mem_append, not_or] at hnd
      obtain ⟨⟨haca, hab, hacb⟩, hnd⟩ := hnd
      obtain ⟨nda, ndb, hdis⟩ := List.nodup_append.1 hnd
      have ndb' := List.nodup_cons.1 ndb
      have hbca : b ∉ ca.map Prod.fst := fun hh => hdis b hh b (by simp) rfl
      rw [merge, if_neg (by simp), if_neg (by simp), pCar_eq hb1, Res.ok_bind, pCar_eq ha1, Res.ok_bind, hl h hp y (by simp) x (by simp), Res.ok_bind, mergeF]
      cases hlt : lt y x with
      | true =>
        simp only [if_true]
        rw [pCdr_eq hb1, Res.ok_bind]
        cases cb with
        | nil =>
          cases hb2
          rw [if_pos rfl, pSetCdr_eq hb1]
          refine ⟨_, _, rfl, ⟨rfl, .ptr a, set_self hb1, ?_⟩, by simp, prefix_set hp (hge b (by simp)), fun c hc => set_other fun e => hc (by simp [e])⟩
          have : mergeF lt ((a, x) :: ca) [] = (a, x) :: ca := by simp [mergeF]
          rw [this]
          refine hca0.frame fun c hc => set_other fun e => ?_
          subst e
          simp only [List.map_cons, List.mem_cons] at hc
          rcases hc with rfl | hc
          · exact hab rfl
          · exact hbca hc
        | cons q cb =>
          have hd : db ≠ .null := by
            obtain ⟨e, _⟩ := hb2
            rw [e]; simp
          rw [if_neg hd]
          obtain ⟨h', e1, e2, e5, e6, e7⟩ := mergeLoop_spec (less := less) (lt := lt) n ((a, x) :: ca) (q :: cb) h (.ptr a) db y db b (by simp) (by simp) hca0 hb2
            (by
              simp only [List.map_append, List.map_cons, List.cons_append, List.nodup_cons, List.mem_cons, List.mem_append, not_or] at ndb' hacb hdis ⊢
              refine ⟨⟨fun e => hab e.symm, hbca, ndb'.1.1, ndb'.1.2⟩, ⟨haca, hacb.1, hacb.2⟩, List.nodup_append.2 ⟨nda, List.nodup_cons.2 ndb'.2, fun c hc d hd => hdis c hc d (by simp at hd ⊢; tauto)⟩⟩)
            hb1 (fun c hc => hge c (by simp at hc ⊢; tauto)) hp (hl.sub (by intro z hz; simp at hz ⊢; tauto)) (by simp at hn ⊢; omega)
          rw [e1]
          exact ⟨h', _, rfl, e2, e5, e6, fun c hc => e7 c (by simp at hc ⊢; tauto)⟩
      | false =>
        simp only [Bool.false_eq_true, if_false]
        rw [pCdr_eq ha1, Res.ok_bind]
        cases ca with
        | nil =>
          cases ha2
          rw [if_pos rfl, pSetCdr_eq ha1]
          refine ⟨_, _, rfl, ⟨rfl, .ptr b, set_self ha1, ?_⟩, by simp, prefix_set hp (hge a (by simp)), fun c hc => set_other fun e => hc (by simp [e])⟩
          rw [mergeF]
          refine hcb0.frame fun c hc => set_other fun e => ?_
          subst e
          simp only [List.map_cons, List.mem_cons] at hc
          rcases hc with rfl | hc
          · exact hab rfl
          · exact hacb hc
        | cons q ca =>
          have hd : da ≠ .null := by
            obtain ⟨e, _⟩ := ha2
            rw [e]; simp
          rw [if_neg hd]
          obtain ⟨h', e1, e2, e5, e6, e7⟩ := mergeLoop_spec (less := less) (lt := lt) n (q :: ca) ((b, y) :: cb) h da (.ptr b) x da a (by simp) (by simp) ha2 hcb0
            hnd0 ha1 hge hp (hl.sub (by intro z hz; simp at hz ⊢; tauto)) (by simp at hn ⊢; omega)
          rw [e1]
          exact ⟨h', _, rfl, e2, e5, e6, e7⟩

theorem sortF_long (lt : V → V → Bool) {xs : List V} (hl : 2 < xs.length) : sortF lt xs = mergeV lt (sortF lt (xs.take (xs.length / 2))) (sortF lt (xs.drop (xs.length / 2))) := by
  match xs, hl with
  | x :: y :: z :: xs, _ => rw [sortF]; rfl

theorem step_spec : ∀ (n : Nat) (cs ds : List (Nat × V)) (h : Heap) (seq : V) (f : Nat), cs.length < n → cs.length ≤ f → Chain h seq (cs ++ ds) .null → ((cs ++ ds).map Prod.fst).Nodup →
    (∀ c ∈ cs.map Prod.fst, h0.length ≤ c) → h0 <+: h → Cmp less lt h0 (cs.map Prod.snd) →
    ∃ h' seq' r cs', step less f n h seq cs.length = .ok (h', seq', r) ∧ Chain h' seq' ds .null ∧ Chain h' r cs' .null ∧ cs'.map Prod.snd = sortF lt (cs.map Prod.snd) ∧
      (cs'.map Prod.fst).Perm (cs.map Prod.fst) ∧ h'.length = h.length ∧ h0 <+: h' ∧ ∀ c, c ∉ cs.map Prod.fst → h'[c]? = h[c]?
  | 0, _, _, _, _, _, hn, _, _, _, _, _, _ => by omega
  | n + 1, [], ds, h, seq, f, _, _, hc, _, _, hp, _ => by
    rw [step]
    exact ⟨h, seq, .null, [], by simp, hc, rfl, by simp [sortF], .refl _, rfl, hp, fun _ _ => rfl⟩
  | n + 1, [(a, x)], ds, h, seq, f, _, _, hc, hnd, hge, hp, _ => by
    obtain ⟨rfl, d, h1, h2⟩ := hc
    have hnd' := (List.nodup_cons.1 hnd).1
    rw [step]
    simp only [List.length_cons, List.length_nil]
    rw [if_neg (by omega), if_neg (by omega), if_pos (by trivial), pCdr_eq h1, Res.ok_bind, pSetCdr_eq h1, Res.ok_bind]
    refine ⟨_, _, _, [(a, x)], rfl, ?_, ⟨rfl, .null, set_self h1, rfl⟩, by simp [sortF], .refl _, by simp, prefix_set hp (hge a (by simp)), fun c hc => set_other fun e => hc (by simp [e])⟩
    exact h2.frame fun c hc => set_other fun e => hnd' (e ▸ hc)
  | n + 1, [(a, x), (b, y)], ds, h, seq, f, _, _, hc, hnd, hge, hp, hl => by
    obtain ⟨rfl, d, h1, rfl, d2, h2, h3⟩ := hc
    simp only [List.cons_append, List.nil_append, List.map_cons, List.nodup_cons, List.mem_cons, not_or] at hnd
    obtain ⟨⟨hab, had⟩, hbd, hnd⟩ := hnd
    rw [step]
    simp only [List.length_cons, List.length_nil]
    rw [if_neg (by omega), if_pos (by trivial), pCar_eq h1, Res.ok_bind, pCdr_eq h1, Res.ok_bind, pCar_eq h2, Res.ok_bind, pCdr_eq h2, Res.ok_bind, hl h hp y (by simp) x (by simp), Res.ok_bind]
    cases hlt : lt y x with
    | true =>
      have h1' : (h.set a (.pair y (.ptr b)))[a]? = some (.pair y (.ptr b)) := set_self h1
      have h2' : (h.set a (.pair y (.ptr b)))[b]? = some (.pair y d2) := by rw [set_other (Ne.symm hab), h2]
      have h1'' : ((h.set a (.pair y (.ptr b))).set b (.pair x d2))[a]? = some (.pair y (.ptr b)) := by rw [set_other hab, h1']
      have h2'' : ((h.set a (.pair y (.ptr b))).set b (.pair x d2))[b]? = some (.pair x d2) := set_self h2'
      simp only [if_true]
      rw [pSetCar_eq h1, Res.ok_bind, pCdr_eq h1', Res.ok_bind, pSetCar_eq h2', Res.ok_bind, pCdr_eq h1'', Res.ok_bind, pSetCdr_eq h2'', Res.ok_bind]
      refine ⟨_, _, _, [(a, y), (b, x)], rfl, ?_, ⟨rfl, .ptr b, ?_, rfl, .null, set_self h2'', rfl⟩, by simp [sortF, hlt], .refl _, by simp, ?_, ?_⟩
      · exact h3.frame fun c hc => by
          have hcb : c ≠ b := fun e => hbd (e ▸ hc)
          have hca : c ≠ a := fun e => had (e ▸ hc)
          rw [set_other hcb, set_other hcb, set_other hca]
      · rw [set_other hab, h1'']
      · exact prefix_set (prefix_set (prefix_set hp (hge a (by simp))) (hge b (by simp))) (hge b (by simp))
      · intro c hc
        simp only [List.map_cons, List.map_nil, List.mem_cons, List.not_mem_nil, or_false, not_or] at hc
        rw [set_other hc.2, set_other hc.2, set_other hc.1]
    | false =>
      simp only [Bool.false_eq_true, if_false, Res.pure_eq]
      rw [Res.ok_bind, pCdr_eq h1, Res.ok_bind, pSetCdr_eq h2, Res.ok_bind]
      refine ⟨_, _, _, [(a, x), (b, y)], rfl, ?_, ⟨rfl, .ptr b, ?_, rfl, .null, set_self h2, rfl⟩, by simp [sortF, hlt], .refl _, by simp, prefix_set hp (hge b (by simp)), ?_⟩
      · exact h3.frame fun c hc => set_other fun e => hbd (e ▸ hc)
      · rw [set_other hab, h1]
      · intro c hc
        exact set_other fun e => hc (by simp [e])
  | n + 1, p1 :: p2 :: p3 :: cs0, ds, h, seq, f, hn, hf, hc, hnd, hge, hp, hl => by
    generalize hcs : p1 :: p2 :: p3 :: cs0 = cs at hn hf hc hnd hge hl ⊢
    have hlen : 2 < cs.length := by rw [← hcs]; simp
    have hj : (cs.take (cs.length / 2)).length = cs.length / 2 := by rw [List.length_take]; omega
    have hk : (cs.drop (cs.length / 2)).length = cs.length - cs.length / 2 := List.length_drop
    have happ : cs.take (cs.length / 2) ++ (cs.drop (cs.length / 2) ++ ds) = cs ++ ds := by rw [← List.append_assoc, List.take_append_drop]
    have hin : ∀ c, c ∈ cs.map Prod.fst ↔ c ∈ (cs.take (cs.length / 2)).map Prod.fst ∨ c ∈ (cs.drop (cs.length / 2)).map Prod.fst := by
      intro c
      rw [← List.mem_append, ← List.map_append, List.take_append_drop]
    have hnd1 := hnd
    rw [← happ, List.map_append, List.nodup_append] at hnd1
    obtain ⟨na, nb, nab⟩ := hnd1
    rw [step, if_pos hlen]
    obtain ⟨h1, s1, ra, ca, a1, a2, a3, a4, a5, a6, a7, a8⟩ := step_spec n (cs.take (cs.length / 2)) (cs.drop (cs.length / 2) ++ ds) h seq f (by omega) (by omega) (by rw [happ]; exact hc)
      (by rw [happ]; exact hnd) (fun c hc => hge c ((hin c).2 (.inl hc))) hp
      (hl.sub fun z hz => by rw [List.map_take] at hz; exact List.mem_of_mem_take hz)
    rw [hj] at a1
    simp only [a1, Res.ok_bind]
    obtain ⟨h2, s2, rb, cb, b1, b2, b3, b4, b5, b6, b7, b8⟩ := step_spec n (cs.drop (cs.length / 2)) ds h1 s1 f (by omega) (by omega) a2 nb
      (fun c hc => hge c ((hin c).2 (.inr hc))) a7 (hl.sub fun z hz => by rw [List.map_drop] at hz; exact List.mem_of_mem_drop hz)
    rw [hk] at b1
    simp only [b1, Res.ok_bind]
    have haddr : ∀ c, c ∈ (ca ++ cb).map Prod.fst ↔ c ∈ cs.map Prod.fst := by
      intro c
      rw [List.map_append, List.mem_append, a5.mem_iff, b5.mem_iff, hin]
    have ndrop : ∀ c ∈ (cs.take (cs.length / 2)).map Prod.fst, c ∉ (cs.drop (cs.length / 2)).map Prod.fst := fun c hc hd => nab c hc c (by rw [List.map_append, List.mem_append]; exact .inl hd) rfl
    have hca2 : Chain h2 ra ca .null := a3.frame fun c hc => b8 c (ndrop c (a5.mem_iff.1 hc))
    have hperm : ((ca ++ cb).map Prod.fst).Perm (cs.map Prod.fst) := by
      rw [List.map_append]
      refine (a5.append b5).trans ?_
      rw [← List.map_append, List.take_append_drop]
    obtain ⟨h3, r, c1, c2, c3, c4, c5⟩ := merge_spec (less := less) (lt := lt) (n := f) hca2 b3
      (hperm.nodup_iff.2 (by rw [List.map_append, List.nodup_append] at hnd; exact hnd.1))
      (fun c hc => hge c ((haddr c).1 hc)) b7
      (hl.sub (by
        intro z hz
        rw [List.map_append, a4, b4, List.mem_append, (sortF_perm _ _).mem_iff, (sortF_perm _ _).mem_iff, List.map_take, List.map_drop] at hz
        rcases hz with hz | hz
        · exact List.mem_of_mem_take hz
        · exact List.mem_of_mem_drop hz))
      (by
        have e1 := a5.length_eq
        have e2 := b5.length_eq
        simp only [List.length_map] at e1 e2
        rw [e1, e2, hj, hk]; omega)
    simp only [c1, Res.ok_bind, Res.pure_eq]
    refine ⟨h3, s2, r, mergeF lt ca cb, rfl, ?_, c2, ?_, ?_, by rw [c3, b6, a6], c4, ?_⟩
    · refine b2.frame fun c hc => c5 c fun hh => ?_
      have hh := (haddr c).1 hh
      rw [List.map_append, List.nodup_append] at hnd
      exact hnd.2.2 c hh c hc rfl
    · rw [mergeF_map, a4, b4, sortF_long lt (xs := cs.map Prod.snd) (by rw [List.length_map]; exact hlen), List.length_map, List.map_take, List.map_drop]
    · exact ((mergeF_perm lt ca cb).map Prod.fst).trans hperm
    · intro c hc
      rw [c5 c (fun hh => hc ((haddr c).1 hh)), b8 c (fun hh => hc ((hin c).2 (.inr hh))), a8 c (fun hh => hc ((hin c).2 (.inl hh)))]

/-- A new list consists of distinct cells, if it ends. -/
theorem chain_of_seg {n : Nat} {h : Heap} : ∀ {xs : List V} {v : V}, Seg n h v xs .null → ∃ cs, Chain h v cs .null ∧ cs.map Prod.snd = xs ∧ ∀ c ∈ cs.map Prod.fst, n ≤ c
  | [], _, e => ⟨[], e, rfl, by simp⟩
  | x :: xs, _, ⟨a, d, e1, e2, e3, e4⟩ => by
    obtain ⟨cs, h1, h2, h3⟩ := chain_of_seg e4
    refine ⟨(a, x) :: cs, ⟨e1, d, e3, h1⟩, by simp [h2], fun c hc => ?_⟩
    rcases List.mem_cons.1 hc with rfl | hc
    · exact e2
    · exact h3 c hc

theorem Chain.unique {h : Heap} : ∀ {cs ds : List (Nat × V)} {v : V}, Chain h v cs .null → Chain h v ds .null → cs = ds
  | [], [], _, _, _ => rfl
  | [], (_, _) :: _, _, h1, h2 => by obtain ⟨e, _⟩ := h2; cases h1; cases e
  | (_, _) :: _, [], _, h1, h2 => by obtain ⟨e, _⟩ := h1; cases h2; cases e
  | (a, x) :: cs, (b, y) :: ds, _, ⟨e1, d1, h1, k1⟩, ⟨e2, d2, h2, k2⟩ => by
    rw [e1] at e2
    cases e2
    rw [h1] at h2
    cases h2
    rw [Chain.unique k1 k2]

/-- The cells of a list that ends are distinct. -/
theorem Chain.nodup {h : Heap} : ∀ {cs : List (Nat × V)} {v : V}, Chain h v cs .null → (cs.map Prod.fst).Nodup
  | [], _, _ => List.nodup_nil
  | (a, x) :: cs, _, ⟨e, d, h1, h2⟩ => by
    refine List.nodup_cons.2 ⟨fun hm => ?_, Chain.nodup h2⟩
    obtain ⟨⟨a', y⟩, hm1, rfl⟩ := List.mem_map.1 hm
    clear hm
    obtain ⟨l1, l2, rfl⟩ := List.append_of_mem hm1
    obtain ⟨u, _, h4⟩ := Chain.append h2
    have h5 : Chain h (.ptr a') ((a', x) :: (l1 ++ (a', y) :: l2)) .null := ⟨rfl, d, h1, h2⟩
    have h6 : u = .ptr a' := h4.1
    rw [h6] at h4
    have := congrArg List.length (Chain.unique h4 h5)
    simp at this
    omega

theorem sortBang_spec {n : Nat} {h : Heap} {l : V} {xs : List V} (hs : Seg h0.length h l xs .null) (hp : h0 <+: h) (hl : Cmp less lt h0 xs) (hn : xs.length < n) :
    ∃ h' r, sortBang less n h l = .ok (h', r) ∧ h0 <+: h' ∧ IsList h' r (sortF lt xs) := by
  obtain ⟨cs, h1, h2, h3⟩ := chain_of_seg hs
  have hlen : cs.length = xs.length := by rw [← h2, List.length_map]
  obtain ⟨h', s', r, cs', a1, a2, a3, a4, a5, a6, a7, a8⟩ := step_spec (less := less) (lt := lt) n cs [] h l n (by omega) (by omega) (by rw [List.append_nil]; exact h1)
    (by rw [List.append_nil]; exact h1.nodup) h3 hp (by rw [h2]; exact hl)
  have hL : IsList h l xs := Seg.mono (Nat.zero_le _) (List.prefix_refl _) hs
  refine ⟨h', r, ?_, a7, ?_⟩
  · rw [sortBang, pLength, listp_list hL hn]
    simp only [Res.ok_bind, if_true]
    rw [C25_length hL hn, Res.ok_bind, ← hlen, a1]
    rfl
  · have := a3.isList
    rw [a4, h2] at this
    exact this

end heap

/-! ### C61 -/

theorem sortF_sortOf {lt : V → V → Bool} {xs : List V} (h : SWO lt xs) : SortOf lt xs (sortF lt xs) :=
  ⟨sortF_perm lt xs, (sortF_spec xs h).1, fun e he => (sortF_spec xs h).2 e (h.perm_cons he fun _ => id)⟩

/-- C61, lists: `sort` returns a new list with the sorted elements: a permutation, ascending, stable.  Nothing that existed before is changed, in particular not the argument.  The comparison
procedure may read data that existed before; on the elements it computes a strict weak order. -/
theorem C61_list (less : Less) (lt : V → V → Bool) (n : Nat) (h : Heap) (v : V) (xs : List V) (hx : IsList h v xs) (hn : xs.length < n) (ho : SWO lt xs)
    (hl : ∀ h', h <+: h' → ∀ x ∈ xs, ∀ y ∈ xs, less h' x y = .ok (lt x y)) :
    ∃ h' r ys, sort less n h v = .ok (h', r) ∧ h <+: h' ∧ IsList h' r ys ∧ SortOf lt xs ys ∧ IsList h' v xs := by
  obtain ⟨h1, l, a1, a2, a3, a4, _⟩ := C25_append2 hx (w := .null) (ys := []) rfl hn (Nat.zero_lt_of_lt hn)
  obtain ⟨h', r, b1, b2, b3⟩ := sortBang_spec (less := less) (lt := lt) a4 a2 hl hn
  have hv : vecAt h v = none := by
    cases xs with
    | nil => cases hx; rfl
    | cons x xs =>
      obtain ⟨a, d, e1, _, e3, _⟩ := hx
      simp [e1, vecAt, e3]
  refine ⟨h', r, _, ?_, b2, b3, sortF_sortOf ho, Seg.mono (Nat.le_refl _) b2 hx⟩
  rw [sort, hv]
  simp only
  rw [a1, Res.ok_bind]
  exact b1

/-- C61, vectors: the same. -/
theorem C61_vector (less : Less) (lt : V → V → Bool) (n : Nat) (h : Heap) (v : V) (xs : List V) (hx : vecAt h v = some xs) (hn : xs.length < n) (ho : SWO lt xs)
    (hl : ∀ h', h <+: h' → ∀ x ∈ xs, ∀ y ∈ xs, less h' x y = .ok (lt x y)) :
    ∃ h' r ys, sort less n h v = .ok (h', r) ∧ h <+: h' ∧ vecAt h' r = some ys ∧ SortOf lt xs ys ∧ vecAt h' v = some xs := by
  obtain ⟨h1, l, a1, a2, a3⟩ := C33_vector_to_list hx
  obtain ⟨h2, r, b1, b2, b3⟩ := sortBang_spec (less := less) (lt := lt) a3 a2 hl hn
  obtain ⟨h', r', c1, c2, c3, _⟩ := C33_list_to_vector b3 (n := n) (by rw [(sortF_perm lt xs).length_eq]; exact hn)
  refine ⟨h', r', _, ?_, b2.trans c2, c3, sortF_sortOf ho, vecAt_prefix (b2.trans c2) hx⟩
  rw [sort, hx]
  simp only
  rw [a1, Res.ok_bind]
  simp only
  rw [b1, Res.ok_bind]
  exact c1

/-- C61: with any comparison procedure that always answers, consistently or not, `sort` ends with a permutation of the list and leaves its argument alone. -/
theorem C61_any_order (less : Less) (lt : V → V → Bool) (n : Nat) (h : Heap) (v : V) (xs : List V) (hx : IsList h v xs) (hn : xs.length < n)
    (hl : ∀ h', h <+: h' → ∀ x ∈ xs, ∀ y ∈ xs, less h' x y = .ok (lt x y)) :
    ∃ h' r ys, sort less n h v = .ok (h', r) ∧ h <+: h' ∧ IsList h' r ys ∧ ys.Perm xs ∧ IsList h' v xs := by
  obtain ⟨h1, l, a1, a2, a3, a4, _⟩ := C25_append2 hx (w := .null) (ys := []) rfl hn (Nat.zero_lt_of_lt hn)
  obtain ⟨h', r, b1, b2, b3⟩ := sortBang_spec (less := less) (lt := lt) a4 a2 hl hn
  have hv : vecAt h v = none := by
    cases xs with
    | nil => cases hx; rfl
    | cons x xs =>
      obtain ⟨a, d, e1, _, e3, _⟩ := hx
      simp [e1, vecAt, e3]
  refine ⟨h', r, _, ?_, b2, b3, sortF_perm _ _, Seg.mono (Nat.le_refl _) b2 hx⟩
  rw [sort, hv]
  simp only
  rw [a1, Res.ok_bind]
  exact b1

/-- C61: a value that is neither a list nor a vector is refused. -/
theorem C61_refused (less : Less) (n : Nat) (h : Heap) (v : V) (hv : ¬ ∃ xs, IsList h v xs) (hw : vecAt h v = none) : sort less n h v = .err ∨ sort less n h v = .oof := by
  rw [sort, hw]
  simp only
  rw [pAppend]
  rcases listp_cases h n v with e | ⟨b, e⟩
  · rw [e]; exact .inr rfl
  · rw [e]
    cases b with
    | false => exact .inl rfl
    | true =>
      obtain ⟨xs, hx, _⟩ := listp_true e
      exact absurd ⟨xs, hx⟩ hv

/-- Numbers in cells: `(21 12 22 11 23)` compared by their last digit. -/
def sortHeap : Heap := [.pair (.atom 21) (.ptr 1), .pair (.atom 12) (.ptr 2), .pair (.atom 22) (.ptr 3), .pair (.atom 11) (.ptr 4), .pair (.atom 23) .null]

def lastDigit (x y : V) : Bool :=
  match x, y with
  | .atom m, .atom n => decide (m % 10 < n % 10)
  | _, _ => false

/-- The hypotheses of C61 hold for this list, and the result is `(21 11 12 22 23)`. -/
example : IsList sortHeap (.ptr 0) [.atom 21, .atom 12, .atom 22, .atom 11, .atom 23] ∧ SWO lastDigit [.atom 21, .atom 12, .atom 22, .atom 11, .atom 23] ∧
    (∀ h', sortHeap <+: h' → ∀ x y, (fun _ x y => .ok (lastDigit x y) : Less) h' x y = .ok (lastDigit x y)) ∧
    ∃ h' r, sort (fun _ x y => .ok (lastDigit x y)) 6 sortHeap (.ptr 0) = .ok (h', r) ∧ IsList h' r [.atom 21, .atom 11, .atom 12, .atom 22, .atom 23] := by
  refine ⟨⟨0, _, rfl, by decide, rfl, 1, _, rfl, by decide, rfl, 2, _, rfl, by decide, rfl, 3, _, rfl, by decide, rfl, 4, _, rfl, by decide, rfl, rfl⟩, ⟨by decide, by decide⟩,
    fun _ _ _ _ => rfl, _, _, rfl, ?_⟩
  exact ⟨5, _, rfl, by decide, rfl, 8, _, rfl, by decide, rfl, 6, _, rfl, by decide, rfl, 7, _, rfl, by decide, rfl, 9, _, rfl, by decide, rfl, rfl⟩

end Minim.LH
