import Verif.ListHeap
import Mathlib.Data.List.Forall2

set_option autoImplicit false

/-! # Properties of native lists and vectors (C25, C26, C30, C33) -/

namespace Minim.LH

/-! ### specification: list segments -/

/-- `xs` are the elements met when following cells from `v` until `w`; all cells lie at addresses `≥ n` (specification) -/
def Seg (n : Nat) (h : Heap) : V → List V → V → Prop
  | v, [], w => v = w
  | v, x :: xs, w => ∃ a d, v = .ptr a ∧ n ≤ a ∧ h[a]? = some (.pair x d) ∧ Seg n h d xs w

/-- `v` is a proper list with elements `xs` (specification) -/
def IsList (h : Heap) (v : V) (xs : List V) : Prop := Seg 0 h v xs .null

theorem getElem?_prefix {h h' : Heap} (hp : h <+: h') {a : Nat} {o : Obj} (ha : h[a]? = some o) : h'[a]? = some o := by
  obtain ⟨t, rfl⟩ := hp
  rw [List.getElem?_append_left (List.getElem?_eq_some_iff.1 ha).1, ha]

theorem Seg.mono {n m : Nat} {h h' : Heap} (hm : m ≤ n) (hp : h <+: h') : ∀ {xs : List V} {v w : V}, Seg n h v xs w → Seg m h' v xs w
  | [], _, _, e => e
  | _ :: _, _, _, ⟨a, d, e1, e2, e3, e4⟩ => ⟨a, d, e1, Nat.le_trans hm e2, getElem?_prefix hp e3, Seg.mono hm hp e4⟩

theorem Seg.append {n : Nat} {h : Heap} : ∀ {xs ys : List V} {v u w : V}, Seg n h v xs u → Seg n h u ys w → Seg n h v (xs ++ ys) w
  | [], _, _, _, _, e, s => by cases e; exact s
  | _ :: _, _, _, _, _, ⟨a, d, e1, e2, e3, e4⟩, s => ⟨a, d, e1, e2, e3, Seg.append e4 s⟩

theorem Seg.single {n : Nat} {h : Heap} {a : Nat} {x w : V} (hn : n ≤ a) (ha : h[a]? = some (.pair x w)) : Seg n h (.ptr a) [x] w :=
  ⟨a, w, rfl, hn, ha, rfl⟩

theorem pairAt_ptr {h : Heap} {a : Nat} {x d : V} (ha : h[a]? = some (.pair x d)) : pairAt h (.ptr a) = some (x, d) := by
  simp [pairAt, ha]

theorem pairAt_prefix {h h' : Heap} (hp : h <+: h') {v : V} {c : V × V} (hv : pairAt h v = some c) : pairAt h' v = some c := by
  cases v with
  | ptr a =>
    simp only [pairAt] at hv ⊢
    cases ho : h[a]? with
    | none => simp [ho] at hv
    | some o => rw [getElem?_prefix hp ho]; rw [ho] at hv; exact hv
  | _ => simp [pairAt] at hv

theorem pairAt_some {h : Heap} {v : V} {c : V × V} (hv : pairAt h v = some c) : ∃ a, v = .ptr a ∧ h[a]? = some (.pair c.1 c.2) := by
  cases v with
  | ptr a =>
    simp only [pairAt] at hv
    refine ⟨a, rfl, ?_⟩
    cases ho : h[a]? with
    | none => simp [ho] at hv
    | some o =>
      cases o with
      | pair x d => rw [ho] at hv; simp at hv; rw [← hv]
      | vec es => simp [ho] at hv
  | _ => simp [pairAt] at hv

theorem car_eq {h : Heap} {v x d : V} (hv : pairAt h v = some (x, d)) : car h v = .ok x := by simp [car, hv]
theorem cdr_eq {h : Heap} {v x d : V} (hv : pairAt h v = some (x, d)) : cdr h v = .ok d := by simp [cdr, hv]

theorem prefix_cons (h : Heap) (a d : V) : h <+: cons h a d := List.prefix_append _ _

theorem cons_last (h : Heap) (a d : V) : (cons h a d)[h.length]? = some (.pair a d) := by simp [cons]

theorem cons_length (h : Heap) (a d : V) : (cons h a d).length = h.length + 1 := by simp [cons]

/-! ### recognising lists -/

theorem listp_list {h : Heap} : ∀ {xs : List V} {v : V} {n : Nat}, IsList h v xs → xs.length < n → listp h n v = .ok true
  | [], _, n + 1, e, _ => by cases e; simp [listp, pairAt]
  | x :: xs, v, n + 1, ⟨a, d, e1, _, e3, e4⟩, hn => by
    subst e1
    rw [listp, pairAt_ptr e3]
    exact listp_list e4 (by simpa using hn)

theorem listp_true {h : Heap} : ∀ {n : Nat} {v : V}, listp h n v = .ok true → ∃ xs, IsList h v xs ∧ xs.length < n
  | n + 1, v, hl => by
    rw [listp] at hl
    cases hp : pairAt h v with
    | none =>
      rw [hp] at hl
      simp at hl
      exact ⟨[], hl, by simp⟩
    | some c =>
      rw [hp] at hl
      obtain ⟨xs, h1, h2⟩ := listp_true hl
      obtain ⟨a, e1, e2⟩ := pairAt_some hp
      exact ⟨c.1 :: xs, ⟨a, c.2, e1, Nat.zero_le _, e2, h1⟩, by simpa using h2⟩

theorem listp_cases (h : Heap) : ∀ (n : Nat) (v : V), listp h n v = .oof ∨ ∃ b, listp h n v = .ok b
  | 0, _ => Or.inl rfl
  | n + 1, v => by
    rw [listp]
    cases pairAt h v with
    | none => exact Or.inr ⟨_, rfl⟩
    | some c => exact listp_cases h n c.2

theorem IsList.unique {h : Heap} : ∀ {xs ys : List V} {v : V}, IsList h v xs → IsList h v ys → xs = ys
  | [], [], _, _, _ => rfl
  | [], y :: ys, v, e, ⟨a, d, e1, _⟩ => by cases e; cases e1
  | x :: xs, [], v, ⟨a, d, e1, _⟩, e => by cases e; cases e1
  | x :: xs, y :: ys, v, ⟨a, d, e1, _, e3, e4⟩, ⟨a', d', f1, _, f3, f4⟩ => by
    subst e1; cases f1
    rw [e3] at f3; cases f3
    rw [IsList.unique e4 f4]

/-! ## C25 -/

/-- C25, `list?` recognises exactly the proper lists (whenever it returns). -/
theorem C25_listp (h : Heap) (v : V) : (∃ n, listp h n v = .ok true) ↔ ∃ xs, IsList h v xs :=
  ⟨fun ⟨_, hn⟩ => let ⟨xs, h1, _⟩ := listp_true hn; ⟨xs, h1⟩,
   fun ⟨xs, hx⟩ => ⟨xs.length + 1, listp_list hx (Nat.lt_succ_self _)⟩⟩

/-- C25, `length` -/
theorem C25_length {h : Heap} : ∀ {xs : List V} {v : V} {n : Nat}, IsList h v xs → xs.length < n → length h n v = .ok xs.length
  | [], _, n + 1, e, _ => by cases e; simp [length, pairAt]
  | x :: xs, v, n + 1, ⟨a, d, e1, _, e3, e4⟩, hn => by
    subst e1
    rw [length, pairAt_ptr e3]
    simp only [C25_length e4 (by simpa using hn)]
    simp

theorem reverse_seg : ∀ {xs : List V} {h : Heap} {v ys : V} {n : Nat}, IsList h v xs → xs.length < n →
    ∃ h' r, reverse n h v ys = .ok (h', r) ∧ h <+: h' ∧ h'.length = h.length + xs.length ∧ Seg h.length h' r xs.reverse ys
  | [], h, v, ys, n + 1, e, _ => by
    cases e
    exact ⟨h, ys, by simp [reverse], List.prefix_refl _, by simp, rfl⟩
  | x :: xs, h, v, ys, n + 1, ⟨a, d, e1, _, e3, e4⟩, hn => by
    subst e1
    have hp := pairAt_ptr e3
    obtain ⟨h', r, h1, h2, h3, h4⟩ := reverse_seg (h := cons h x ys) (ys := next h) (n := n)
      (Seg.mono (Nat.le_refl 0) (prefix_cons h x ys) e4) (by simpa using hn)
    refine ⟨h', r, ?_, (prefix_cons h x ys).trans h2, ?_, ?_⟩
    · rw [reverse, if_neg (by simp), car_eq hp, cdr_eq hp]; exact h1
    · rw [h3, cons_length]; simp; omega
    · rw [List.reverse_cons]
      refine Seg.append (Seg.mono ?_ (List.prefix_refl _) h4) (Seg.single (Nat.le_refl _) (getElem?_prefix h2 (cons_last h x ys)))
      rw [cons_length]; omega

/-- C25, `reverse`: a new list with the elements in the opposite order; one new pair per element, the old heap is
unchanged. -/
theorem C25_reverse {h : Heap} {v : V} {xs : List V} {n : Nat} (hx : IsList h v xs) (hn : xs.length < n) :
    ∃ h' r, pReverse n h v = .ok (h', r) ∧ h <+: h' ∧ h'.length = h.length + xs.length ∧
      Seg h.length h' r xs.reverse .null := by
  obtain ⟨h', r, h1, h2⟩ := reverse_seg (ys := .null) hx hn
  exact ⟨h', r, by rw [pReverse, listp_list hx hn]; exact h1, h2⟩

/-- consecutive new cells holding `xs`, each pointing to the next address -/
def links : Nat → List V → Heap
  | _, [] => []
  | n, x :: xs => .pair x (.ptr (n + 1)) :: links (n + 1) xs

theorem links_length : ∀ (xs : List V) (n : Nat), (links n xs).length = xs.length
  | [], _ => rfl
  | _ :: xs, n => by simp [links, links_length xs]

theorem links_snoc : ∀ (d : List V) (n : Nat) (y : V), links n (d ++ [y]) = links n d ++ [.pair y (.ptr (n + d.length + 1))]
  | [], _, _ => rfl
  | x :: d, n, y => by
    simp only [List.cons_append, links, links_snoc d, List.length_cons]
    rw [show n + 1 + d.length + 1 = n + (d.length + 1) + 1 by omega]

theorem seg_links : ∀ (d : List V) (h0 ex : Heap) (y w : V),
    Seg h0.length (h0 ++ links h0.length d ++ [.pair y w] ++ ex) (.ptr h0.length) (d ++ [y]) w
  | [], h0, ex, y, w => Seg.single (Nat.le_refl _) (by simp [links])
  | x :: d, h0, ex, y, w => by
    refine ⟨h0.length, .ptr (h0.length + 1), rfl, Nat.le_refl _, ?_, ?_⟩
    · simp [links]
    · have := seg_links d (h0 ++ [.pair x (.ptr (h0.length + 1))]) ex y w
      simp only [List.length_append, List.length_singleton] at this
      refine Seg.mono (n := h0.length + 1) (Nat.le_succ _) ?_ this
      simp [links]

theorem setCdr_mid (h0 ex : Heap) (y w w' : V) (a : Nat) (ha : a = h0.length) :
    setCdr (h0 ++ [.pair y w] ++ ex) (.ptr a) w' = .ok (h0 ++ [.pair y w'] ++ ex) := by
  subst ha
  have : (h0 ++ [Obj.pair y w] ++ ex)[h0.length]? = some (.pair y w) := by simp
  simp [setCdr]

/-- the copying loop: the new cells are linked in order behind those already there -/
theorem copyLoop_spec {init : V} : ∀ {xs : List V} {h0 : Heap} {it : V} {n : Nat} (d : List V) (y : V), IsList h0 it xs →
    xs.length < n → ∃ d' y', d' ++ [y'] = d ++ y :: xs ∧
      copyLoop init n (h0 ++ links h0.length d ++ [.pair y init]) (.ptr (h0.length + d.length)) it =
        .ok (h0 ++ links h0.length d' ++ [.pair y' init], .ptr (h0.length + d'.length))
  | [], h0, it, n + 1, d, y, e, _ => by
    cases e
    exact ⟨d, y, rfl, by simp [copyLoop]⟩
  | x :: xs, h0, it, n + 1, d, y, ⟨a, nx, e1, _, e3, e4⟩, hn => by
    subst e1
    obtain ⟨d', y', h1, h2⟩ := copyLoop_spec (init := init) (n := n) (d ++ [y]) x e4 (by simpa using hn)
    refine ⟨d', y', by rw [h1]; simp, ?_⟩
    have hpre : h0 <+: h0 ++ links h0.length d ++ [Obj.pair y init] := ⟨_, (List.append_assoc _ _ _).symm⟩
    have hp := pairAt_prefix hpre (pairAt_ptr e3)
    have hlen : (h0 ++ links h0.length d ++ [Obj.pair y init]).length = h0.length + d.length + 1 := by
      simp [links_length]; omega
    rw [copyLoop, if_neg (by simp), car_eq hp, cdr_eq hp]
    simp only [Res.ok_bind]
    rw [next, hlen, cons, setCdr_mid _ _ _ _ _ _ (by simp [links_length])]
    simp only [Res.ok_bind]
    rw [links_snoc] at h2
    simp only [List.length_append, List.length_singleton] at h2
    rw [← h2]
    simp [Nat.add_assoc]

/-- C25, `append` of two lists (native): new cells for the first list, then the second list itself; the old heap is
unchanged. -/
theorem append2_spec {h : Heap} {v w : V} {xs : List V} {n : Nat} (hx : IsList h v xs) (hn : xs.length < n) :
    ∃ h' r, append2 n h v w = .ok (h', r) ∧ h <+: h' ∧ h'.length = h.length + xs.length ∧ Seg h.length h' r xs w := by
  cases xs with
  | nil =>
    cases hx
    exact ⟨h, w, by simp [append2], List.prefix_refl _, by simp, rfl⟩
  | cons x xs =>
    obtain ⟨a, d, e1, _, e3, e4⟩ := hx
    subst e1
    have hp := pairAt_ptr e3
    obtain ⟨d', y', h1, h2⟩ := copyLoop_spec (init := .nullptr) (h0 := h) (n := n) [] x e4 (by simp at hn; omega)
    simp only [links, List.append_nil, List.length_nil, Nat.add_zero, List.nil_append] at h1 h2
    refine ⟨h ++ links h.length d' ++ [.pair y' w], next h, ?_, ⟨_, (List.append_assoc _ _ _).symm⟩, ?_, ?_⟩
    · rw [append2, if_neg (by simp), car_eq hp, cdr_eq hp]
      simp only [Res.ok_bind]
      rw [show cons h x .nullptr = h ++ [.pair x .nullptr] from rfl, show next h = .ptr h.length from rfl, h2]
      have := setCdr_mid (h ++ links h.length d') [] y' .nullptr w (h.length + d'.length) (by simp [links_length])
      simp only [List.append_nil] at this
      simp only [Res.ok_bind, this, Res.pure_eq]
    · have := congrArg List.length h1
      simp at this
      simp [links_length]; omega
    · have := seg_links d' h [] y' w
      rw [List.append_nil, h1] at this
      exact this

/-- C25, `append` of two lists -/
theorem C25_append2 {h : Heap} {v w : V} {xs ys : List V} {n : Nat} (hx : IsList h v xs) (hy : IsList h w ys)
    (hn : xs.length < n) (hm : ys.length < n) :
    ∃ h' r, pAppend n h [v, w] = .ok (h', r) ∧ h <+: h' ∧ h'.length = h.length + xs.length ∧ Seg h.length h' r xs w ∧
      IsList h' r (xs ++ ys) := by
  obtain ⟨h', r, h1, h2, h3, h4⟩ := append2_spec (w := w) hx hn
  refine ⟨h', r, ?_, h2, h3, h4, ?_⟩
  · rw [pAppend, listp_list hx hn, listp_list hy hm]; exact h1
  · exact Seg.append (Seg.mono (Nat.zero_le _) (List.prefix_refl _) h4) (Seg.mono (Nat.le_refl _) h2 hy)

theorem appendLoop_spec {n : Nat} : ∀ {vs : List V} {h : Heap} {acc : V} {xss : List (List V)} {as : List V}, IsList h acc as →
    List.Forall₂ (IsList h) vs xss → (∀ xs ∈ xss, xs.length < n) →
    ∃ h' r, appendLoop n h acc vs = .ok (h', r) ∧ h <+: h' ∧ IsList h' r (xss.reverse.flatten ++ as)
  | [], h, acc, _, as, ha, .nil, _ => ⟨h, acc, rfl, List.prefix_refl _, by simpa using ha⟩
  | v :: vs, h, acc, _, as, ha, .cons (b := xs) (l₂ := xss) hv hvs, hn => by
    obtain ⟨h1, r1, e1, e2, -, e4⟩ := append2_spec (w := acc) hv (hn xs (by simp))
    have hr : IsList h1 r1 (xs ++ as) :=
      Seg.append (Seg.mono (Nat.zero_le _) (List.prefix_refl _) e4) (Seg.mono (Nat.le_refl _) e2 ha)
    have hvs' : List.Forall₂ (IsList h1) vs xss := hvs.imp (fun _ _ hh => Seg.mono (Nat.le_refl _) e2 hh)
    obtain ⟨h', r, f1, f2, f3⟩ := appendLoop_spec (n := n) hr hvs' (fun x hx => hn x (by simp [hx]))
    refine ⟨h', r, ?_, e2.trans f2, by simpa using f3⟩
    rw [appendLoop, listp_list hv (hn xs (by simp))]
    simp only [Res.ok_bind, if_true, e1]
    exact f1

/-- C25, `append` of any number of lists: the concatenation; the old heap is unchanged. -/
theorem C25_append {h : Heap} {vs : List V} {xss : List (List V)} {n : Nat} (hv : List.Forall₂ (IsList h) vs xss)
    (hn : ∀ xs ∈ xss, xs.length < n) :
    ∃ h' r, pAppend n h vs = .ok (h', r) ∧ h <+: h' ∧ IsList h' r xss.flatten := by
  match vs, xss, hv with
  | [], [], .nil => exact ⟨h, .null, rfl, List.prefix_refl _, rfl⟩
  | [v], [xs], .cons h1 .nil =>
    refine ⟨h, v, ?_, List.prefix_refl _, by simpa using h1⟩
    rw [pAppend, listp_list h1 (hn xs (by simp))]; rfl
  | [v, w], [xs, ys], .cons h1 (.cons h2 .nil) =>
    obtain ⟨h', r, e1, e2, -, -, e3⟩ := C25_append2 h1 h2 (hn xs (by simp)) (hn ys (by simp))
    exact ⟨h', r, e1, e2, by simpa using e3⟩
  | v1 :: v2 :: v3 :: vs, _, hv =>
    obtain ⟨h', r, e1, e2, e3⟩ := appendLoop_spec (n := n) (acc := .null) (as := []) rfl (List.rel_reverse hv)
      (fun xs hx => hn xs (by simpa using hx))
    exact ⟨h', r, e1, e2, by simpa using e3⟩

/-- C25, list copy (native, used by the compiler) -/
theorem C25_copy {h : Heap} {v : V} {xs : List V} {n : Nat} (hx : IsList h v xs) (hn : xs.length < n) :
    ∃ h' r, copyList n h v = .ok (h', r) ∧ h <+: h' ∧ h'.length = h.length + xs.length ∧ Seg h.length h' r xs .null := by
  cases xs with
  | nil =>
    cases hx
    exact ⟨h, .null, by simp [copyList], List.prefix_refl _, by simp, rfl⟩
  | cons x xs =>
    obtain ⟨a, d, e1, _, e3, e4⟩ := hx
    subst e1
    have hp := pairAt_ptr e3
    obtain ⟨d', y', h1, h2⟩ := copyLoop_spec (init := .null) (h0 := h) (n := n) [] x e4 (by simp at hn; omega)
    simp only [links, List.append_nil, List.length_nil, Nat.add_zero, List.nil_append] at h1 h2
    refine ⟨h ++ links h.length d' ++ [.pair y' .null], next h, ?_, ⟨_, (List.append_assoc _ _ _).symm⟩, ?_, ?_⟩
    · rw [copyList, if_neg (by simp), car_eq hp, cdr_eq hp]
      simp only [Res.ok_bind]
      rw [show cons h x .null = h ++ [.pair x .null] from rfl, show next h = .ptr h.length from rfl, h2]
      rfl
    · have := congrArg List.length h1
      simp at this
      simp [links_length]; omega
    · have := seg_links d' h [] y' .null
      rw [List.append_nil, h1] at this
      exact this

/-- C25, `memq` (native): the part of the list starting at the first element that is `eq?` to the key, or #f. -/
theorem C25_memq {eqp : V → V → Bool} {h : Heap} {k : V} : ∀ {xs : List V} {v : V} {n : Nat}, IsList h v xs → xs.length < n →
    (memq eqp h n v k = .ok .fals ∧ ∀ x ∈ xs, eqp x k = false) ∨
    ∃ pre x post r, memq eqp h n v k = .ok r ∧ xs = pre ++ x :: post ∧ (∀ y ∈ pre, eqp y k = false) ∧ eqp x k = true ∧
      Seg 0 h v pre r ∧ IsList h r (x :: post)
  | [], _, n + 1, e, _ => by cases e; exact Or.inl ⟨by simp [memq], by simp⟩
  | x :: xs, v, n + 1, ⟨a, d, e1, e2, e3, e4⟩, hn => by
    subst e1
    have hp := pairAt_ptr e3
    have hstep : memq eqp h (n + 1) (.ptr a) k = if eqp x k then .ok (.ptr a) else memq eqp h n d k := by
      rw [memq, if_neg (by simp), car_eq hp, cdr_eq hp]; rfl
    rw [hstep]
    cases hx : eqp x k with
    | true => exact Or.inr ⟨[], x, xs, .ptr a, rfl, rfl, by simp, hx, rfl, ⟨a, d, rfl, e2, e3, e4⟩⟩
    | false =>
      rcases C25_memq (eqp := eqp) (k := k) e4 (n := n) (by simpa using hn) with ⟨h1, h2⟩ | ⟨pre, y, post, r, h1, h2, h3, h4, h5, h6⟩
      · exact Or.inl ⟨by simpa using h1, by simpa [hx] using h2⟩
      · exact Or.inr ⟨x :: pre, y, post, r, by simpa using h1, by simp [h2], by simpa [hx] using h3, h4,
          ⟨a, d, rfl, e2, e3, h5⟩, h6⟩

theorem makeLoop_spec (init : V) : ∀ (n : Nat) (h : Heap) (l : V), h <+: (makeLoop init n h l).1 ∧
    (makeLoop init n h l).1.length = h.length + n ∧
    Seg h.length (makeLoop init n h l).1 (makeLoop init n h l).2 (List.replicate n init) l
  | 0, h, l => ⟨List.prefix_refl _, rfl, rfl⟩
  | n + 1, h, l => by
    obtain ⟨h1, h2, h3⟩ := makeLoop_spec init n (cons h init l) (next h)
    refine ⟨(prefix_cons h init l).trans h1, ?_, ?_⟩
    · rw [makeLoop, h2, cons_length]; omega
    · rw [List.replicate_succ']
      refine Seg.append (Seg.mono ?_ (List.prefix_refl _) h3) (Seg.single (Nat.le_refl _) (getElem?_prefix h1 (cons_last h init l)))
      rw [cons_length]; omega

/-- C28 (native part), `make-list`: a new list of the requested length, all elements being the given object. -/
theorem C28_make_list (h : Heap) (len : Nat) (init : V) : h <+: (makeList h len init).1 ∧
    (makeList h len init).1.length = h.length + len ∧
    Seg h.length (makeList h len init).1 (makeList h len init).2 (List.replicate len init) .null :=
  makeLoop_spec init len h .null

/-- an example heap: (1 2), (3) and an improper list (4 . 5), a circular list at 4, and a vector of two elements -/
def heap0 : Heap :=
  [.pair (.atom 1) (.ptr 1), .pair (.atom 2) .null, .pair (.atom 3) .null, .pair (.atom 4) (.atom 5), .pair (.atom 6) (.ptr 4),
   .vec [.atom 7, .null]]

theorem heap0_lists : IsList heap0 (.ptr 0) [.atom 1, .atom 2] ∧ IsList heap0 (.ptr 2) [.atom 3] := by
  simp [IsList, Seg, heap0]

example : pAppend 5 heap0 [.ptr 0, .ptr 2] =
    .ok (heap0 ++ [.pair (.atom 1) (.ptr 7), .pair (.atom 2) (.ptr 2)], .ptr 6) := by decide

theorem lastCell_spec {h : Heap} (w : V) : ∀ {xs : List V} {x v : V} {n : Nat}, IsList h v (x :: xs) → xs.length < n →
    ∃ t y, lastCell h n v = .ok (.ptr t) ∧ h[t]? = some (.pair y .null) ∧ Seg 0 (h.set t (.pair y w)) v (x :: xs) w
  | [], x, v, n + 1, ⟨a, d, e1, _, e3, e4⟩, _ => by
    subst e1; cases e4
    refine ⟨a, x, ?_, e3, ⟨a, w, rfl, Nat.zero_le _, ?_, rfl⟩⟩
    · rw [lastCell, cdr_eq (pairAt_ptr e3)]; simp [consp, pairAt]
    · rw [List.getElem?_set_self (List.getElem?_eq_some_iff.1 e3).1]
  | y :: ys, x, v, n + 1, ⟨a, d, e1, _, e3, e4⟩, hn => by
    subst e1
    obtain ⟨b, d', f1, _, f3, f4⟩ := e4
    subst f1
    obtain ⟨t, z, g1, g2, g3⟩ := lastCell_spec w (n := n) (h := h) (v := .ptr b) ⟨b, d', rfl, Nat.zero_le _, f3, f4⟩ (by simpa using hn)
    refine ⟨t, z, ?_, g2, ⟨a, .ptr b, rfl, Nat.zero_le _, ?_, g3⟩⟩
    · rw [lastCell, cdr_eq (pairAt_ptr e3)]
      simp only [Res.ok_bind, consp, pairAt_ptr f3, Option.isSome_some, if_true]
      exact g1
    · have : t ≠ a := by rintro rfl; rw [e3] at g2; simp at g2
      rw [List.getElem?_set_ne this, e3]

/-- C25, `list_set_tail` (native, used by the compiler): the last pair of the list is made to continue with the second
argument; exactly one cell changes, and it belongs to the list. -/
theorem C25_set_tail {h : Heap} {v w x : V} {xs : List V} {n : Nat} (hx : IsList h v (x :: xs)) (hn : xs.length < n) :
    ∃ h' t y, setTail n h v w = .ok h' ∧ h[t]? = some (.pair y .null) ∧ h' = h.set t (.pair y w) ∧ Seg 0 h' v (x :: xs) w := by
  obtain ⟨t, y, h1, h2, h3⟩ := lastCell_spec w hx hn
  refine ⟨_, t, y, ?_, h2, rfl, h3⟩
  obtain ⟨a, d, e1, _, e3, e4⟩ := hx
  subst e1
  rw [setTail, consp, pairAt_ptr e3]
  simp only [Option.isSome_some, if_true, h1, Res.ok_bind]
  simp [setCdr, h2]

example : setTail 3 heap0 (.ptr 0) (.ptr 2) = .ok (heap0.set 1 (.pair (.atom 2) (.ptr 2))) := by decide

/-! ## C26 -/

theorem length_ne_ub (h : Heap) : ∀ (n : Nat) (v : V), length h n v ≠ .ub
  | 0, _ => by simp [length]
  | n + 1, v => by
    rw [length]
    cases pairAt h v with
    | none => simp
    | some c =>
      have := length_ne_ub h n c.2
      cases hl : length h n c.2 <;> simp_all

/-- `list?` decides which way a checked procedure goes -/
theorem checked {α : Type} (h : Heap) (n : Nat) (v : V) (f : Res α) (hf : (∃ xs, IsList h v xs ∧ xs.length < n) → f ≠ .ub) :
    (listp h n v >>= fun b => if b then f else .err) ≠ .ub := by
  rcases listp_cases h n v with h1 | ⟨b, h1⟩
  · rw [h1]; simp
  · rw [h1]
    cases b with
    | false => simp
    | true => simpa using hf (listp_true h1)

theorem appendLoop_ne_ub (n : Nat) : ∀ (vs : List V) (h : Heap) (acc : V), appendLoop n h acc vs ≠ .ub
  | [], _, _ => by simp [appendLoop]
  | v :: vs, h, acc => by
    rw [appendLoop]
    refine checked h n v _ (fun ⟨xs, hx, hn⟩ => ?_)
    obtain ⟨h1, r1, e1, -⟩ := append2_spec (w := acc) hx hn
    rw [e1]
    exact appendLoop_ne_ub n vs h1 r1

theorem fillLoop_list {h : Heap} : ∀ {xs : List V} {v : V}, IsList h v xs → fillLoop h xs.length v = .ok xs
  | [], _, _ => rfl
  | x :: xs, v, ⟨a, d, e1, _, e3, e4⟩ => by
    subst e1
    have hp := pairAt_ptr e3
    rw [List.length_cons, fillLoop, car_eq hp, cdr_eq hp]
    simp [fillLoop_list e4]

theorem listToVector_list {h : Heap} {v : V} {xs : List V} {n : Nat} (hx : IsList h v xs) (hn : xs.length < n) :
    listToVector n h v = .ok (h ++ [.vec xs], next h) := by
  rw [listToVector, C25_length hx hn]
  simp [fillLoop_list hx]

/-- C26: `length`, `reverse`, `append`, `list->vector` and `vector->list` never reach undefined behaviour, on any heap and
any argument (improper, cyclic, not a list at all).  Missing: procedures taking a callback (`C26_negated_mutation`). -/
theorem C26_no_ub_partial (h : Heap) (n : Nat) (v : V) (vs : List V) :
    pLength n h v ≠ .ub ∧ pReverse n h v ≠ .ub ∧ pAppend n h vs ≠ .ub ∧ pListToVector n h v ≠ .ub ∧ pVectorToList h v ≠ .ub := by
  refine ⟨checked h n v _ (fun _ => length_ne_ub h n v), checked h n v _ (fun ⟨xs, hx, hn⟩ => ?_), ?_,
    checked h n v _ (fun ⟨xs, hx, hn⟩ => ?_), ?_⟩
  · obtain ⟨h', r, e, -⟩ := reverse_seg (ys := .null) hx hn
    rw [e]; simp
  · match vs with
    | [] => simp [pAppend]
    | [xs] => exact checked h n xs _ (fun _ => by simp)
    | [xs, ys] =>
      refine checked h n xs _ (fun ⟨l, hx, hn⟩ => checked h n ys _ (fun _ => ?_))
      obtain ⟨h1, r1, e1, -⟩ := append2_spec (w := ys) hx hn
      rw [e1]; simp
    | a :: b :: c :: ds => exact appendLoop_ne_ub n _ h .null
  · rw [listToVector_list hx hn]; simp
  · rw [pVectorToList]
    cases hv : vecAt h v with
    | none => simp
    | some es => simp [vectorToList, hv]

theorem checked_improper {α : Type} (h : Heap) (n : Nat) (v : V) (f : Res α) (hv : ¬ ∃ xs, IsList h v xs) :
    (listp h n v >>= fun b => if b then f else .err) = .err ∨ (listp h n v >>= fun b => if b then f else .err) = .oof := by
  rcases listp_cases h n v with h1 | ⟨b, h1⟩
  · right; rw [h1]; rfl
  · left
    cases b with
    | true => obtain ⟨xs, hx, _⟩ := listp_true h1; exact absurd ⟨xs, hx⟩ hv
    | false => rw [h1]; rfl

/-- C26: whatever is not a proper list is refused with an error (or, if it is cyclic, the test does not end); no result is
ever made from it. -/
theorem C26_improper_refused (h : Heap) (n : Nat) (v : V) (hv : ¬ ∃ xs, IsList h v xs) :
    (pLength n h v = .err ∨ pLength n h v = .oof) ∧ (pReverse n h v = .err ∨ pReverse n h v = .oof) ∧
    (pListToVector n h v = .err ∨ pListToVector n h v = .oof) ∧ (pAppend n h [v] = .err ∨ pAppend n h [v] = .oof) ∧
    ∀ w, pAppend n h [v, w] = .err ∨ pAppend n h [v, w] = .oof :=
  ⟨checked_improper h n v _ hv, checked_improper h n v _ hv, checked_improper h n v _ hv, checked_improper h n v _ hv,
   fun _ => checked_improper h n v _ hv⟩

example : ¬ (∃ xs, IsList heap0 (.ptr 3) xs) ∧ pLength 5 heap0 (.ptr 3) = .err := by
  refine ⟨?_, by decide⟩
  rintro ⟨xs, hx⟩
  have h1 := listp_list hx (Nat.lt_succ_self _)
  cases xs with
  | nil => cases hx
  | cons x xs =>
    obtain ⟨a, d, e1, _, e3, e4⟩ := hx
    cases e1
    simp [heap0] at e3
    rw [← e3.2] at e4
    cases xs with
    | nil => cases e4
    | cons y ys => obtain ⟨a, d, e1, _⟩ := e4; cases e1

/-- C26 fails for procedures with callbacks: `for-each` checks its list once and then uses unchecked accessors.  A procedure
that changes the list during the traversal makes it read the parts of an object that is not a pair. -/
theorem C26_negated_mutation : ∃ (f : Heap → V → Res Heap) (h : Heap) (v : V) (xs : List V), IsList h v xs ∧
    (∀ h x, f h x = setCdr h (.ptr 0) (.atom 9)) ∧ ∀ n, 4 ≤ n → pForEach f n h v = .ub := by
  refine ⟨fun h _ => setCdr h (.ptr 0) (.atom 9), heap0, .ptr 0, _, heap0_lists.1, fun _ _ => rfl, ?_⟩
  intro n hn
  obtain ⟨k, rfl⟩ := Nat.exists_eq_add_of_le hn
  rw [pForEach, listp_list heap0_lists.1 (by simp; omega), Nat.add_comm 4 k]
  rfl

/-! ## C30 -/

/-- `v` is an association list with these entries (specification) -/
def Alist (h : Heap) (v : V) (es : List (V × V)) : Prop :=
  ∃ ps, IsList h v ps ∧ List.Forall₂ (fun p e => pairAt h p = some e) ps es

/-- what a key is mapped to: the first entry counts (specification) -/
def lookup (eqp : V → V → Bool) (es : List (V × V)) (k : V) : Option V := (es.find? (fun e => eqp e.1 k)).map Prod.snd

/-- the entries after an update: the first entry of the key gets the new value, or a new entry goes to the end -/
def upd (eqp : V → V → Bool) (k v : V) : List (V × V) → List (V × V)
  | [] => [(k, v)]
  | e :: es => if eqp e.1 k then (e.1, v) :: es else e :: upd eqp k v es

theorem forall₂_prefix {h h' : Heap} (hp : h <+: h') {ps : List V} {es : List (V × V)}
    (hf : List.Forall₂ (fun p e => pairAt h p = some e) ps es) : List.Forall₂ (fun p e => pairAt h' p = some e) ps es :=
  hf.imp (fun _ _ hh => pairAt_prefix hp hh)

theorem consEntry_eq (h : Heap) (k v rest : V) : consEntry h k v rest = h ++ [.pair k v, .pair (.ptr h.length) rest] := by
  simp [consEntry, cons, next]

theorem assqLoop_spec {eqp : V → V → Bool} {k v : V} : ∀ {ps : List V} {es : List (V × V)} {h0 : Heap} {it : V} {n : Nat}
    (d : List V) (y : V) (ds : List (V × V)), IsList h0 it ps → List.Forall₂ (fun p e => pairAt h0 p = some e) ps es →
    List.Forall₂ (fun p e => pairAt h0 p = some e) (d ++ [y]) ds → ps.length < n →
    ∃ h' qs, assqLoop eqp k v n (h0 ++ links h0.length d ++ [.pair y .null]) (.ptr (h0.length + d.length)) it = .ok h' ∧
      h0 <+: h' ∧ IsList h' (.ptr h0.length) qs ∧ List.Forall₂ (fun p e => pairAt h' p = some e) qs (ds ++ upd eqp k v es)
  | ps, es, h0, it, n + 1, d, y, ds, hl, hf, hd, hn => by
    have hlen : (h0 ++ links h0.length d ++ [Obj.pair y .null]).length = h0.length + d.length + 1 := by
      simp [links_length]; omega
    -- the end: a new entry in front of `rest`
    have fin : ∀ (k' rest : V) (ps' : List V) (es' : List (V × V)), IsList h0 rest ps' →
        List.Forall₂ (fun p e => pairAt h0 p = some e) ps' es' →
        ∃ h' qs, setCdr (consEntry (h0 ++ links h0.length d ++ [Obj.pair y .null]) k' v rest) (.ptr (h0.length + d.length))
          (.ptr ((h0 ++ links h0.length d ++ [Obj.pair y .null]).length + 1)) = .ok h' ∧
        h0 <+: h' ∧ IsList h' (.ptr h0.length) qs ∧ List.Forall₂ (fun p e => pairAt h' p = some e) qs (ds ++ (k', v) :: es') := by
      intro k' rest ps' es' hr hfr
      rw [consEntry_eq, setCdr_mid _ _ _ _ _ _ (by simp [links_length]), hlen]
      have hpre : h0 <+: h0 ++ links h0.length d ++ [Obj.pair y (.ptr (h0.length + d.length + 1 + 1))] ++
          [.pair k' v, .pair (.ptr (h0.length + d.length + 1)) rest] := by
        rw [List.append_assoc, List.append_assoc]; exact List.prefix_append _ _
      refine ⟨_, (d ++ [y]) ++ .ptr (h0.length + d.length + 1) :: ps', rfl, hpre, ?_, ?_⟩
      · refine Seg.append (Seg.mono (Nat.zero_le _) (List.prefix_refl _) (seg_links d h0 _ y _)) ?_
        refine ⟨_, rest, rfl, Nat.zero_le _, ?_, Seg.mono (Nat.le_refl _) hpre hr⟩
        rw [List.getElem?_append_right (by simp [links_length]; omega)]
        simp only [List.length_append, links_length, List.length_singleton]
        rw [show h0.length + d.length + 1 + 1 - (h0.length + d.length + 1) = 1 by omega]; rfl
      · refine List.rel_append (forall₂_prefix hpre hd) (.cons ?_ (forall₂_prefix hpre hfr))
        apply pairAt_ptr
        rw [List.getElem?_append_right (by simp [links_length]; omega)]
        simp only [List.length_append, links_length, List.length_singleton, Nat.sub_self]; rfl
    cases hf with
    | nil =>
      cases hl
      rw [assqLoop, if_pos rfl]
      exact fin k .null [] [] rfl .nil
    | cons hp hps =>
      rename_i p e ps es
      obtain ⟨a, nx, e1, _, e3, e4⟩ := hl
      subst e1
      have hpre : h0 <+: h0 ++ links h0.length d ++ [Obj.pair y .null] := ⟨_, (List.append_assoc _ _ _).symm⟩
      have hc := pairAt_prefix hpre (pairAt_ptr e3)
      have he := pairAt_prefix hpre (show pairAt h0 p = some (e.1, e.2) from hp)
      rw [assqLoop, if_neg (by simp), car_eq hc, cdr_eq hc]
      simp only [Res.ok_bind]
      rw [car_eq he]
      simp only [Res.ok_bind]
      cases hk : eqp e.1 k with
      | true =>
        simp only [if_true, upd, hk]
        exact fin e.1 nx ps es e4 hps
      | false =>
        simp only [Bool.false_eq_true, if_false, upd, hk]
        have hd' : List.Forall₂ (fun p e => pairAt h0 p = some e) (d ++ [y] ++ [p]) (ds ++ [e]) :=
          List.rel_append hd (.cons hp .nil)
        obtain ⟨h', qs, f1, f2, f3, f4⟩ := assqLoop_spec (eqp := eqp) (k := k) (v := v) (n := n) (d ++ [y]) p (ds ++ [e]) e4 hps hd'
          (by simpa using hn)
        refine ⟨h', qs, ?_, f2, f3, by simpa using f4⟩
        rw [next, hlen, cons, setCdr_mid _ _ _ _ _ _ (by simp [links_length])]
        simp only [Res.ok_bind]
        rw [links_snoc] at f1
        simp only [List.length_append, List.length_singleton] at f1
        rw [← f1]
        simp [Nat.add_assoc]

/-- the entries of the result of `assq_set` -/
theorem assqSet_entries {eqp : V → V → Bool} {k v : V} {h : Heap} {l : V} {es : List (V × V)} {n : Nat}
    (hl : Alist h l es) (hn : es.length < n) :
    ∃ h' r, assqSet eqp n h l k v = .ok (h', r) ∧ h <+: h' ∧ Alist h' r (upd eqp k v es) := by
  obtain ⟨ps, hl, hf⟩ := hl
  have hpre : ∀ k' rest, h <+: consEntry h k' v rest := fun k' rest => by rw [consEntry_eq]; exact List.prefix_append _ _
  have fin : ∀ (k' rest : V) (ps' : List V) (es' : List (V × V)), IsList h rest ps' →
      List.Forall₂ (fun p e => pairAt h p = some e) ps' es' → Alist (consEntry h k' v rest) (.ptr (h.length + 1)) ((k', v) :: es') := by
    intro k' rest ps' es' hr hfr
    refine ⟨.ptr h.length :: ps', ⟨_, rest, rfl, Nat.zero_le _, ?_, Seg.mono (Nat.le_refl _) (hpre k' rest) hr⟩,
      .cons ?_ (forall₂_prefix (hpre k' rest) hfr)⟩
    · rw [consEntry_eq]; simp
    · apply pairAt_ptr; rw [consEntry_eq]; simp
  cases hf with
  | nil =>
    cases hl
    exact ⟨_, _, by rw [assqSet, if_pos rfl], hpre k .null, fin k .null [] [] rfl .nil⟩
  | cons hp hps =>
    rename_i p e ps es
    have hlen : ps.length = es.length := hps.length_eq
    obtain ⟨a, nx, e1, _, e3, e4⟩ := hl
    subst e1
    have hc := pairAt_ptr e3
    have he : pairAt h p = some (e.1, e.2) := hp
    rw [assqSet, if_neg (by simp), car_eq hc, cdr_eq hc]
    simp only [Res.ok_bind]
    rw [car_eq he]
    simp only [Res.ok_bind]
    cases hk : eqp e.1 k with
    | true =>
      simp only [if_true, upd, hk]
      exact ⟨_, _, rfl, hpre e.1 nx, fin e.1 nx ps es e4 hps⟩
    | false =>
      simp only [Bool.false_eq_true, if_false, upd, hk]
      obtain ⟨h', qs, f1, f2, f3, f4⟩ := assqLoop_spec (eqp := eqp) (k := k) (v := v) (n := n) [] p [e] e4 hps
        (.cons hp .nil) (by simp at hn; omega)
      simp only [links, List.append_nil, List.length_nil, Nat.add_zero] at f1
      refine ⟨h', .ptr h.length, ?_, f2, qs, f3, by simpa using f4⟩
      rw [show cons h p .null = h ++ [.pair p .null] from rfl, show next h = .ptr h.length from rfl, f1]
      rfl

/-- `assq_ref` finds the first entry of a key -/
theorem assqRef_entries {eqp : V → V → Bool} {k : V} {h : Heap} : ∀ {ps : List V} {es : List (V × V)} {l : V} {n : Nat},
    IsList h l ps → List.Forall₂ (fun p e => pairAt h p = some e) ps es → ps.length < n →
    (assqRef eqp h n l k = .ok .fals ∧ lookup eqp es k = none) ∨
    ∃ p e, assqRef eqp h n l k = .ok p ∧ pairAt h p = some e ∧ lookup eqp es k = some e.2
  | [], _, _, n + 1, hl, .nil, _ => by cases hl; exact Or.inl ⟨by simp [assqRef], rfl⟩
  | p :: ps, e :: es, l, n + 1, ⟨a, nx, e1, _, e3, e4⟩, .cons hp hps, hn => by
    subst e1
    have hc := pairAt_ptr e3
    have he : pairAt h p = some (e.1, e.2) := hp
    have hstep : assqRef eqp h (n + 1) (.ptr a) k = if eqp e.1 k then .ok p else assqRef eqp h n nx k := by
      rw [assqRef, if_neg (by simp), car_eq hc, cdr_eq hc]
      simp only [Res.ok_bind]
      rw [car_eq he]; rfl
    rw [hstep]
    cases hk : eqp e.1 k with
    | true => exact Or.inr ⟨p, e, rfl, hp, by simp [lookup, hk]⟩
    | false =>
      rcases assqRef_entries (eqp := eqp) (k := k) e4 hps (n := n) (by simpa using hn) with ⟨h1, h2⟩ | ⟨q, e', h1, h2, h3⟩
      · exact Or.inl ⟨by simpa using h1, by simpa [lookup, hk] using h2⟩
      · exact Or.inr ⟨q, e', by simpa using h1, h2, by simpa [lookup, hk] using h3⟩

/-- C30, `assq_ref`: the first entry of the key, or #f if there is none. -/
theorem C30_ref {eqp : V → V → Bool} {k : V} {h : Heap} {l : V} {es : List (V × V)} {n : Nat} (hl : Alist h l es)
    (hn : es.length < n) :
    (assqRef eqp h n l k = .ok .fals ∧ lookup eqp es k = none) ∨
    ∃ p e, assqRef eqp h n l k = .ok p ∧ pairAt h p = some e ∧ lookup eqp es k = some e.2 := by
  obtain ⟨ps, hl, hf⟩ := hl
  exact assqRef_entries hl hf (by rw [hf.length_eq]; exact hn)

theorem upd_lookup {eqp : V → V → Bool} (symm : ∀ a b, eqp a b = true → eqp b a = true)
    (trans : ∀ a b c, eqp a b = true → eqp b c = true → eqp a c = true) (refl : ∀ a, eqp a a = true) (k v k' : V) :
    ∀ es, lookup eqp (upd eqp k v es) k' = if eqp k k' then some v else lookup eqp es k'
  | [] => by
    cases hk : eqp k k' <;> simp [upd, lookup, hk]
  | e :: es => by
    have ih := upd_lookup symm trans refl k v k' es
    unfold lookup at ih ⊢
    rw [upd]
    cases he : eqp e.1 k with
    | true =>
      have : eqp e.1 k' = eqp k k' := by
        rw [Bool.eq_iff_iff]
        exact ⟨fun h => trans _ _ _ (symm _ _ he) h, fun h => trans _ _ _ he h⟩
      cases hk : eqp k k' <;> simp [this, hk]
    | false =>
      simp only [Bool.false_eq_true, if_false, List.find?_cons]
      cases hk' : eqp e.1 k' with
      | true =>
        have : eqp k k' = false := by
          rw [Bool.eq_false_iff]; intro h
          rw [trans _ _ _ hk' (symm _ _ h)] at he; cases he
        simp [this]
      | false => exact ih

theorem upd_keys {eqp : V → V → Bool} (k v : V) : ∀ es, (upd eqp k v es).map Prod.fst =
    if es.any (fun e => eqp e.1 k) then es.map Prod.fst else es.map Prod.fst ++ [k]
  | [] => rfl
  | e :: es => by
    have ih := upd_keys (eqp := eqp) k v es
    cases he : eqp e.1 k with
    | true => simp [upd, he]
    | false =>
      simp only [upd, he, List.map_cons, List.any_cons, Bool.false_or, ih, Bool.false_eq_true, if_false]
      split <;> simp

/-- C30: `assq_set` returns an association list in which the key has the new value and every other key the old one; the
keys keep their order (a new key goes to the end); the old heap, so also the old list, is unchanged.  `eqp` is any
equivalence (`eq?` is one, C17). -/
theorem C30_set {eqp : V → V → Bool} (refl : ∀ a, eqp a a = true) (symm : ∀ a b, eqp a b = true → eqp b a = true)
    (trans : ∀ a b c, eqp a b = true → eqp b c = true → eqp a c = true) {k v : V} {h : Heap} {l : V} {es : List (V × V)}
    {n : Nat} (hl : Alist h l es) (hn : es.length < n) :
    ∃ h' r es', assqSet eqp n h l k v = .ok (h', r) ∧ h <+: h' ∧ Alist h' r es' ∧ Alist h' l es ∧
      (∀ k', lookup eqp es' k' = if eqp k k' then some v else lookup eqp es k') ∧
      es'.map Prod.fst = if es.any (fun e => eqp e.1 k) then es.map Prod.fst else es.map Prod.fst ++ [k] := by
  obtain ⟨h', r, h1, h2, h3⟩ := assqSet_entries (eqp := eqp) (k := k) (v := v) hl hn
  refine ⟨h', r, _, h1, h2, h3, ?_, fun k' => upd_lookup symm trans refl k v k' es, upd_keys k v es⟩
  obtain ⟨ps, hl, hf⟩ := hl
  exact ⟨ps, Seg.mono (Nat.le_refl _) h2 hl, forall₂_prefix h2 hf⟩

/-- ((1 . 2) (3 . 4)) -/
def heap1 : Heap := [.pair (.atom 1) (.atom 2), .pair (.atom 3) (.atom 4), .pair (.ptr 0) (.ptr 3), .pair (.ptr 1) .null]

example : Alist heap1 (.ptr 2) [(.atom 1, .atom 2), (.atom 3, .atom 4)] ∧
    assqSet (· == ·) 3 heap1 (.ptr 2) (.atom 3) (.atom 9) =
      .ok (heap1 ++ [.pair (.ptr 0) (.ptr 6), .pair (.atom 3) (.atom 9), .pair (.ptr 5) .null], .ptr 4) := by
  refine ⟨⟨[.ptr 0, .ptr 1], by simp [IsList, Seg, heap1], ?_⟩, by decide⟩
  exact .cons (by decide) (.cons (by decide) .nil)

/-! ## C33 -/

theorem consAll_spec : ∀ (xs : List V) (h : Heap) (l : V), h <+: (consAll xs h l).1 ∧
    (consAll xs h l).1.length = h.length + xs.length ∧ Seg h.length (consAll xs h l).1 (consAll xs h l).2 xs.reverse l
  | [], h, l => ⟨List.prefix_refl _, rfl, rfl⟩
  | x :: xs, h, l => by
    obtain ⟨h1, h2, h3⟩ := consAll_spec xs (cons h x l) (next h)
    refine ⟨(prefix_cons h x l).trans h1, ?_, ?_⟩
    · rw [consAll, h2, cons_length]; simp; omega
    · rw [List.reverse_cons]
      refine Seg.append (Seg.mono ?_ (List.prefix_refl _) h3) (Seg.single (Nat.le_refl _) (getElem?_prefix h1 (cons_last h x l)))
      rw [cons_length]; omega

/-- C33, `list->vector`: a new vector with the elements of the list in order. -/
theorem C33_list_to_vector {h : Heap} {v : V} {xs : List V} {n : Nat} (hx : IsList h v xs) (hn : xs.length < n) :
    ∃ h' r, pListToVector n h v = .ok (h', r) ∧ h <+: h' ∧ vecAt h' r = some xs ∧ r = .ptr h.length := by
  refine ⟨h ++ [.vec xs], next h, ?_, ?_, ?_, rfl⟩
  · rw [pListToVector, listp_list hx hn]
    simp only [Res.ok_bind, if_true]
    exact listToVector_list hx hn
  · exact List.prefix_append _ _
  · simp [vecAt, next]

/-- C33, `vector->list`: a new list with the elements of the vector in order. -/
theorem C33_vector_to_list {h : Heap} {v : V} {es : List V} (hv : vecAt h v = some es) :
    ∃ h' r, pVectorToList h v = .ok (h', r) ∧ h <+: h' ∧ Seg h.length h' r es .null := by
  obtain ⟨h1, -, h3⟩ := consAll_spec es.reverse h .null
  rw [List.reverse_reverse] at h3
  exact ⟨_, _, by simp [pVectorToList, vectorToList, hv], h1, h3⟩

theorem vecAt_prefix {h h' : Heap} (hp : h <+: h') {v : V} {es : List V} (hv : vecAt h v = some es) : vecAt h' v = some es := by
  cases v with
  | ptr a =>
    simp only [vecAt] at hv ⊢
    cases ho : h[a]? with
    | none => simp [ho] at hv
    | some o => rw [getElem?_prefix hp ho]; rw [ho] at hv; exact hv
  | _ => simp [vecAt] at hv

/-- C33: the round trips list → vector → list and vector → list → vector preserve the elements. -/
theorem C33_round_trip {h : Heap} {v : V} {xs : List V} {n : Nat} (hn : xs.length < n) :
    (IsList h v xs → ∃ h1 r1 h2 r2, pListToVector n h v = .ok (h1, r1) ∧ pVectorToList h1 r1 = .ok (h2, r2) ∧
      IsList h2 r2 xs ∧ IsList h2 v xs) ∧
    (vecAt h v = some xs → ∃ h1 r1 h2 r2, pVectorToList h v = .ok (h1, r1) ∧ pListToVector n h1 r1 = .ok (h2, r2) ∧
      vecAt h2 r2 = some xs ∧ vecAt h2 v = some xs) := by
  constructor
  · intro hx
    obtain ⟨h1, r1, a1, a2, a3, -⟩ := C33_list_to_vector hx hn
    obtain ⟨h2, r2, b1, b2, b3⟩ := C33_vector_to_list a3
    exact ⟨h1, r1, h2, r2, a1, b1, Seg.mono (Nat.zero_le _) (List.prefix_refl _) b3, Seg.mono (Nat.le_refl _) (a2.trans b2) hx⟩
  · intro hv
    obtain ⟨h1, r1, a1, a2, a3⟩ := C33_vector_to_list hv
    obtain ⟨h2, r2, b1, b2, b3, -⟩ := C33_list_to_vector (Seg.mono (Nat.zero_le _) (List.prefix_refl _) a3) hn
    exact ⟨h1, r1, h2, r2, a1, b1, b3, vecAt_prefix (a2.trans b2) hv⟩

example : vecAt heap0 (.ptr 5) = some [.atom 7, .null] ∧
    pVectorToList heap0 (.ptr 5) = .ok (heap0 ++ [.pair .null .null, .pair (.atom 7) (.ptr 6)], .ptr 7) := by decide

end Minim.LH
