import Verif.ListScm
import Verif.NumProps

set_option autoImplicit false

/-! # Properties of the list procedures of the prelude and the library (C26-C29) -/

namespace Minim.LS

/-! ### specification: chains of pairs -/

/-- the elements `xs` followed by the tail `tl`: `(x1 x2 ... . tl)` (specification) -/
def chain : List Sv → Sv → Sv
  | [], tl => tl
  | x :: xs, tl => .pair x (chain xs tl)

/-- not a pair (specification) -/
def NotPair (v : Sv) : Prop := ∀ a d, v ≠ .pair a d

/-- every object is a chain of pairs ending in something that is not a pair, in exactly one way -/
theorem chain_exists : ∀ v : Sv, ∃ xs tl, v = chain xs tl ∧ NotPair tl
  | .pair a d => let ⟨xs, tl, h1, h2⟩ := chain_exists d; ⟨a :: xs, tl, by rw [chain, ← h1], h2⟩
  | .null => ⟨[], .null, rfl, by intro a d; simp⟩
  | .bool b => ⟨[], .bool b, rfl, by intro a d; simp⟩
  | .num w => ⟨[], .num w, rfl, by intro a d; simp⟩
  | .atom n => ⟨[], .atom n, rfl, by intro a d; simp⟩

theorem ofList_chain : ∀ xs : List Sv, ofList xs = chain xs .null
  | [] => rfl
  | x :: xs => by rw [ofList, ofList_chain xs, chain]

theorem listp_chain {tl : Sv} (ht : NotPair tl) : ∀ xs : List Sv, listp (chain xs tl) = (tl == .null)
  | [] => by
    cases tl with
    | pair a d => exact absurd rfl (ht a d)
    | _ => rfl
  | x :: xs => by rw [chain, listp, listp_chain ht xs]

theorem length_chain {tl : Sv} (ht : NotPair tl) : ∀ xs : List Sv, length (chain xs tl) = xs.length
  | [] => by
    cases tl with
    | pair a d => exact absurd rfl (ht a d)
    | _ => rfl
  | x :: xs => by rw [chain, length, length_chain ht xs, List.length_cons]

theorem notPair_null : NotPair .null := by intro a d; simp

theorem listp_ofList (xs : List Sv) : listp (ofList xs) = true := by
  rw [ofList_chain, listp_chain notPair_null]; rfl

theorem length_ofList (xs : List Sv) : length (ofList xs) = xs.length := by
  rw [ofList_chain, length_chain notPair_null]

theorem reverseOnto_spec : ∀ (xs : List Sv) (ys : Sv), reverseOnto (ofList xs) ys = .ok (chain xs.reverse ys)
  | [], ys => rfl
  | x :: xs, ys => by
    rw [ofList, reverseOnto, reverseOnto_spec xs, List.reverse_cons]
    have : ∀ (l : List Sv), chain l (.pair x ys) = chain (l ++ [x]) ys := by
      intro l
      induction l with
      | nil => rfl
      | cons a l ih => simp [chain, ih]
    rw [this]

theorem reverse_ofList (xs : List Sv) : reverse (ofList xs) = .ok (ofList xs.reverse) := by
  rw [reverse, listp_ofList, if_pos rfl, reverseOnto_spec, ← ofList_chain]

theorem append2_ofList : ∀ (xs : List Sv) (ys : Sv), append2 (ofList xs) ys = .ok (chain xs ys)
  | [], _ => rfl
  | x :: xs, ys => by rw [ofList, append2, append2_ofList xs]; rfl

theorem chain_append (xs ys : List Sv) (tl : Sv) : chain (xs ++ ys) tl = chain xs (chain ys tl) := by
  induction xs with
  | nil => rfl
  | cons x xs ih => rw [List.cons_append, chain, chain, ih]

/-! ## C27: specification -/

section
variable {S : Type}

/-- the argument lists: the `i`-th one holds the `i`-th element of every list (specification) -/
def rows (len : Nat) (xss : List (List Sv)) : List (List Sv) :=
  (List.range len).map fun i => xss.map fun xs => xs.getD i .null

/-- call `f` on the argument lists one after the other and collect the results (specification) -/
def callAll (f : Fn S) : List (List Sv) → S → Res (List Sv × S)
  | [], s => .ok ([], s)
  | r :: rs, s => do
    let a ← f r s
    let b ← callAll f rs a.2
    pure (a.1 :: b.1, b.2)

/-- call `f` until its result is true (`stop = true`) or false (`stop = false`) (specification) -/
def callUntil (stop : Bool) (f : Fn S) : List (List Sv) → S → Res (Bool × S)
  | [], s => .ok (!stop, s)
  | r :: rs, s => do
    let a ← f r s
    if truthy a.1 = stop then pure (stop, a.2) else callUntil stop f rs a.2

theorem rows_zero (xss : List (List Sv)) : rows 0 xss = [] := rfl

theorem rows_succ (len : Nat) (xss : List (List Sv)) :
    rows (len + 1) xss = (xss.map fun xs => xs.getD 0 .null) :: rows len (xss.map List.tail) := by
  rw [rows, List.range_succ_eq_map, List.map_cons, rows, List.map_map]
  congr 1
  apply List.map_congr_left
  intro i _
  simp only [Function.comp, List.map_map]
  apply List.map_congr_left
  intro xs _
  cases xs <;> simp [List.getD]

theorem rows_single (xs : List Sv) : rows xs.length [xs] = xs.map fun x => [x] := by
  induction xs with
  | nil => rfl
  | cons x xs ih =>
    rw [List.length_cons, rows_succ]
    simp only [List.map_cons, List.map_nil, List.tail_cons]
    rw [ih]; rfl

/-! ### the argument check -/

theorem checkLoop_same (len : Nat) : ∀ (xss : List (List Sv)) (prev : Option Nat), (prev = none ∨ prev = some len) →
    (∀ xs ∈ xss, xs.length = len) → checkLoop prev (xss.map ofList) = .ok ()
  | [], _, _, _ => by simp [checkLoop]
  | xs :: xss, prev, hp, hl => by
    have h1 : xs.length = len := hl xs (by simp)
    rw [List.map_cons, checkLoop, listp_ofList, length_ofList, h1]
    have h2 := checkLoop_same len xss (some len) (Or.inr rfl) (fun x hx => hl x (by simp [hx]))
    rcases hp with rfl | rfl <;> simp [sameLen, h2]

theorem checkLoop_ok : ∀ (vs : List Sv) (prev : Option Nat), checkLoop prev vs = .ok () →
    ∃ (len : Nat) (xss : List (List Sv)), vs = xss.map ofList ∧ (∀ xs ∈ xss, xs.length = len) ∧ (∀ k, prev = some k → vs ≠ [] → k = len)
  | [], prev, _ => ⟨0, [], rfl, by simp, by simp⟩
  | v :: vs, prev, h => by
    obtain ⟨xs, tl, rfl, ht⟩ := chain_exists v
    rw [checkLoop, listp_chain ht, length_chain ht] at h
    by_cases hn : tl = .null
    · subst hn
      simp only [beq_self_eq_true, if_true] at h
      have hcond : sameLen prev xs.length = true := by
        by_contra hc
        rw [if_neg hc] at h; cases h
      rw [if_pos hcond] at h
      obtain ⟨len, xss, e1, e2, e3⟩ := checkLoop_ok vs (some xs.length) h
      refine ⟨xs.length, xs :: xss, by rw [List.map_cons, ofList_chain, e1], ?_, ?_⟩
      · intro y hy
        rcases List.mem_cons.1 hy with rfl | hy
        · rfl
        · rw [e2 y hy]
          exact (e3 _ rfl (by rw [e1]; intro h0; rw [List.map_eq_nil_iff] at h0; rw [h0] at hy; cases hy)).symm
      · rintro k rfl _
        simpa [sameLen] using hcond
    · have : (tl == Sv.null) = false := by simpa using hn
      rw [this] at h; simp at h

theorem checkLoop_cases : ∀ (vs : List Sv) (prev : Option Nat), checkLoop prev vs = .ok () ∨ checkLoop prev vs = .err
  | [], _ => Or.inl (by simp [checkLoop])
  | v :: vs, prev => by
    rw [checkLoop]
    split
    · split
      · exact checkLoop_cases vs _
      · exact Or.inr rfl
    · exact Or.inr rfl

/-- the lists are proper and all of the same length (specification) -/
def SameLength (vs : List Sv) : Prop := ∃ (len : Nat) (xss : List (List Sv)), vs = xss.map ofList ∧ ∀ xs ∈ xss, xs.length = len

theorem checkArgs_bad (f : Option (Fn S)) (vs : List Sv) (h : f = none ∨ ¬ SameLength vs) : checkArgs f vs = .err := by
  cases f with
  | none => rfl
  | some f =>
    have h2 : ¬ SameLength vs := by simpa using h
    rcases checkLoop_cases vs none with h1 | h1
    · obtain ⟨len, xss, e1, e2, -⟩ := checkLoop_ok vs none h1
      exact absurd ⟨len, xss, e1, e2⟩ h2
    · rw [checkArgs, h1]; rfl

theorem checkArgs_good (f : Fn S) {len : Nat} {xss : List (List Sv)} (hl : ∀ xs ∈ xss, xs.length = len) :
    checkArgs (some f) (xss.map ofList) = .ok f := by
  rw [checkArgs, checkLoop_same len xss none (Or.inl rfl) hl]; rfl

/-! ### the loops -/

theorem mapU_car (len : Nat) : ∀ xss : List (List Sv), (∀ xs ∈ xss, xs.length = len + 1) →
    mapU uCar (xss.map ofList) = .ok (xss.map fun xs => xs.getD 0 .null)
  | [], _ => rfl
  | xs :: xss, h => by
    have h1 := h xs (by simp)
    cases xs with
    | nil => simp at h1
    | cons x xs =>
      rw [List.map_cons, ofList, mapU, mapU_car len xss (fun y hy => h y (by simp [hy]))]
      rfl

theorem mapU_cdr (len : Nat) : ∀ xss : List (List Sv), (∀ xs ∈ xss, xs.length = len + 1) →
    mapU uCdr (xss.map ofList) = .ok ((xss.map List.tail).map ofList)
  | [], _ => rfl
  | xs :: xss, h => by
    have h1 := h xs (by simp)
    cases xs with
    | nil => simp at h1
    | cons x xs =>
      rw [List.map_cons, ofList, mapU, mapU_cdr len xss (fun y hy => h y (by simp [hy]))]
      rfl

theorem anyNull_zero {xss : List (List Sv)} (hne : xss ≠ []) (h : ∀ xs ∈ xss, xs.length = 0) : anyNull (xss.map ofList) = true := by
  cases xss with
  | nil => exact absurd rfl hne
  | cons xs xss =>
    have := List.length_eq_zero_iff.1 (h xs (by simp))
    subst this
    simp [anyNull, ofList]

theorem anyNull_succ {len : Nat} {xss : List (List Sv)} (h : ∀ xs ∈ xss, xs.length = len + 1) : anyNull (xss.map ofList) = false := by
  rw [anyNull, List.any_eq_false]
  intro v hv
  obtain ⟨xs, hx, rfl⟩ := List.mem_map.1 hv
  have := h xs hx
  cases xs with
  | nil => simp at this
  | cons x xs => simp [ofList]

theorem tails_length {len : Nat} {xss : List (List Sv)} (h : ∀ xs ∈ xss, xs.length = len + 1) :
    ∀ xs ∈ xss.map List.tail, xs.length = len := by
  intro xs hx
  obtain ⟨ys, hy, rfl⟩ := List.mem_map.1 hx
  simp [h ys hy]

theorem tails_ne {xss : List (List Sv)} (h : xss ≠ []) : xss.map List.tail ≠ [] := by simpa using h

theorem mapLoop_spec (f : Fn S) : ∀ (len n : Nat) (xss : List (List Sv)) (acc : List Sv) (s : S), xss ≠ [] →
    (∀ xs ∈ xss, xs.length = len) → len < n →
    mapLoop f n (xss.map ofList) (ofList acc) s = (callAll f (rows len xss) s >>= fun r => .ok (ofList (acc.reverse ++ r.1), r.2))
  | 0, n + 1, xss, acc, s, hne, hl, _ => by
    rw [mapLoop, anyNull_zero hne hl, if_pos rfl, reverse_ofList, rows_zero, callAll]
    simp
  | len + 1, n + 1, xss, acc, s, hne, hl, hn => by
    rw [mapLoop, anyNull_succ hl, if_neg (by simp), mapU_cdr len xss hl, mapU_car len xss hl, rows_succ, callAll]
    simp only [Res.ok_bind]
    cases f (xss.map fun xs => xs.getD 0 .null) s with
    | ok a =>
      simp only [Res.ok_bind]
      rw [show Sv.pair a.1 (ofList acc) = ofList (a.1 :: acc) from rfl,
        mapLoop_spec f len n _ (a.1 :: acc) a.2 (tails_ne hne) (tails_length hl) (by omega)]
      cases callAll f (rows len (xss.map List.tail)) a.2 <;> simp
    | _ => rfl

theorem map1Loop_spec (f : Fn S) : ∀ (xs acc : List Sv) (s : S),
    map1Loop f (ofList xs) (ofList acc) s = (callAll f (xs.map fun x => [x]) s >>= fun r => .ok (ofList (acc.reverse ++ r.1), r.2))
  | [], acc, s => by rw [ofList, map1Loop, reverse_ofList]; simp [callAll]
  | x :: xs, acc, s => by
    rw [ofList, map1Loop, List.map_cons, callAll]
    cases f [x] s with
    | ok a =>
      simp only [Res.ok_bind]
      rw [show Sv.pair a.1 (ofList acc) = ofList (a.1 :: acc) from rfl, map1Loop_spec f xs (a.1 :: acc)]
      cases callAll f (xs.map fun x => [x]) a.2 <;> simp
    | _ => rfl

/-- C27, `map`: the procedure is called on the first elements of all the lists, then on the second ones and so on, once for
each position and from left to right; the result is the list of the results in order.  Errors and undefined behaviour of
the procedure are passed on. -/
theorem C27_map (f : Fn S) {len n : Nat} {xss : List (List Sv)} (s : S) (hne : xss ≠ []) (hl : ∀ xs ∈ xss, xs.length = len)
    (hn : len < n) :
    map n (some f) (xss.map ofList) s = (callAll f (rows len xss) s >>= fun r => .ok (ofList r.1, r.2)) := by
  match xss, hne with
  | [xs], _ =>
    have h1 : xs.length = len := hl xs (by simp)
    have h2 := checkArgs_good f (xss := [xs]) hl
    rw [← h1, rows_single]
    simp only [List.map_cons, List.map_nil] at h2 ⊢
    rw [map, h2]
    simpa [ofList] using map1Loop_spec f xs [] s
  | xs :: ys :: xss, hne =>
    have h2 := checkArgs_good f hl
    simp only [List.map_cons] at h2 ⊢
    rw [map, h2]
    · simpa [ofList] using mapLoop_spec f len n (xs :: ys :: xss) [] s hne hl hn
    all_goals simp

/-- the outcomes of the calls when only the state counts -/
theorem forEachLoop_spec (f : Fn S) : ∀ (len n : Nat) (xss : List (List Sv)) (s : S), xss ≠ [] →
    (∀ xs ∈ xss, xs.length = len) → len < n →
    forEachLoop f n (xss.map ofList) s = (callAll f (rows len xss) s >>= fun r => .ok r.2)
  | 0, n + 1, xss, s, hne, hl, _ => by
    rw [forEachLoop, anyNull_zero hne hl, if_pos rfl, rows_zero, callAll]
    simp
  | len + 1, n + 1, xss, s, hne, hl, hn => by
    rw [forEachLoop, anyNull_succ hl, if_neg (by simp), mapU_cdr len xss hl, mapU_car len xss hl, rows_succ, callAll]
    simp only [Res.ok_bind]
    cases f (xss.map fun xs => xs.getD 0 .null) s with
    | ok a =>
      simp only [Res.ok_bind]
      rw [forEachLoop_spec f len n _ a.2 (tails_ne hne) (tails_length hl) (by omega)]
      cases callAll f (rows len (xss.map List.tail)) a.2 <;> simp
    | _ => rfl

theorem forEach1_spec (f : Fn S) : ∀ (xs : List Sv) (s : S),
    forEach1 f (ofList xs) s = (callAll f (xs.map fun x => [x]) s >>= fun r => .ok r.2)
  | [], s => by rw [ofList, forEach1]; simp [callAll]
  | x :: xs, s => by
    rw [ofList, forEach1, List.map_cons, callAll]
    cases f [x] s with
    | ok a =>
      simp only [Res.ok_bind]
      rw [forEach1_spec f xs]
      cases callAll f (xs.map fun x => [x]) a.2 <;> simp
    | _ => rfl

/-- C27, `for-each`: the same calls in the same order as `map`, results dropped. -/
theorem C27_for_each (f : Fn S) {len n : Nat} {xss : List (List Sv)} (s : S) (hne : xss ≠ []) (hl : ∀ xs ∈ xss, xs.length = len)
    (hn : len < n) : forEach n (some f) (xss.map ofList) s = (callAll f (rows len xss) s >>= fun r => .ok r.2) := by
  match xss, hne with
  | [xs], _ =>
    have h1 : xs.length = len := hl xs (by simp)
    have h2 := checkArgs_good f (xss := [xs]) hl
    rw [← h1, rows_single]
    simp only [List.map_cons, List.map_nil] at h2 ⊢
    rw [forEach, h2]
    simpa using forEach1_spec f xs s
  | xs :: ys :: xss, hne =>
    have h2 := checkArgs_good f hl
    simp only [List.map_cons] at h2 ⊢
    rw [forEach, h2]
    · simpa using forEachLoop_spec f len n (xs :: ys :: xss) s hne hl hn
    all_goals simp

theorem andmapLoop_spec (f : Fn S) : ∀ (len n : Nat) (xss : List (List Sv)) (s : S), xss ≠ [] →
    (∀ xs ∈ xss, xs.length = len) → len < n →
    andmapLoop f n (xss.map ofList) s = (callUntil false f (rows len xss) s >>= fun r => .ok (.bool r.1, r.2))
  | 0, n + 1, xss, s, hne, hl, _ => by
    rw [andmapLoop, anyNull_zero hne hl, if_pos rfl, rows_zero, callUntil]
    simp
  | len + 1, n + 1, xss, s, hne, hl, hn => by
    rw [andmapLoop, anyNull_succ hl, if_neg (by simp), mapU_cdr len xss hl, mapU_car len xss hl, rows_succ, callUntil]
    simp only [Res.ok_bind]
    cases f (xss.map fun xs => xs.getD 0 .null) s with
    | ok a =>
      simp only [Res.ok_bind]
      cases ht : truthy a.1 with
      | true =>
        simpa using andmapLoop_spec f len n _ a.2 (tails_ne hne) (tails_length hl) (by omega)
      | false => simp
    | _ => rfl

theorem ormapLoop_spec (f : Fn S) : ∀ (len n : Nat) (xss : List (List Sv)) (s : S), xss ≠ [] →
    (∀ xs ∈ xss, xs.length = len) → len < n →
    ormapLoop f n (xss.map ofList) s = (callUntil true f (rows len xss) s >>= fun r => .ok (.bool r.1, r.2))
  | 0, n + 1, xss, s, hne, hl, _ => by
    rw [ormapLoop, anyNull_zero hne hl, if_pos rfl, rows_zero, callUntil]
    simp
  | len + 1, n + 1, xss, s, hne, hl, hn => by
    rw [ormapLoop, anyNull_succ hl, if_neg (by simp), mapU_cdr len xss hl, mapU_car len xss hl, rows_succ, callUntil]
    simp only [Res.ok_bind]
    cases f (xss.map fun xs => xs.getD 0 .null) s with
    | ok a =>
      simp only [Res.ok_bind]
      cases ht : truthy a.1 with
      | false =>
        simpa using ormapLoop_spec f len n _ a.2 (tails_ne hne) (tails_length hl) (by omega)
      | true => simp
    | _ => rfl

theorem andmap1_spec (f : Fn S) : ∀ (xs : List Sv) (s : S),
    andmap1 f (ofList xs) s = (callUntil false f (xs.map fun x => [x]) s >>= fun r => .ok (.bool r.1, r.2))
  | [], s => by rw [ofList, andmap1]; simp [callUntil]
  | x :: xs, s => by
    rw [ofList, andmap1, List.map_cons, callUntil]
    cases f [x] s with
    | ok a =>
      simp only [Res.ok_bind]
      cases ht : truthy a.1 with
      | true => simpa using andmap1_spec f xs a.2
      | false => simp
    | _ => rfl

theorem ormap1_spec (f : Fn S) : ∀ (xs : List Sv) (s : S),
    ormap1 f (ofList xs) s = (callUntil true f (xs.map fun x => [x]) s >>= fun r => .ok (.bool r.1, r.2))
  | [], s => by rw [ofList, ormap1]; simp [callUntil]
  | x :: xs, s => by
    rw [ofList, ormap1, List.map_cons, callUntil]
    cases f [x] s with
    | ok a =>
      simp only [Res.ok_bind]
      cases ht : truthy a.1 with
      | false => simpa using ormap1_spec f xs a.2
      | true => simp
    | _ => rfl

/-- C27, `andmap` and `ormap`: calls in order until the first false (true) result, no call after it. -/
theorem C27_and_or (f : Fn S) {len n : Nat} {xss : List (List Sv)} (s : S) (hne : xss ≠ []) (hl : ∀ xs ∈ xss, xs.length = len)
    (hn : len < n) :
    andmap n (some f) (xss.map ofList) s = (callUntil false f (rows len xss) s >>= fun r => .ok (.bool r.1, r.2)) ∧
    ormap n (some f) (xss.map ofList) s = (callUntil true f (rows len xss) s >>= fun r => .ok (.bool r.1, r.2)) := by
  match xss, hne with
  | [xs], _ =>
    have h1 : xs.length = len := hl xs (by simp)
    have h2 := checkArgs_good f (xss := [xs]) hl
    rw [← h1, rows_single]
    simp only [List.map_cons, List.map_nil] at h2 ⊢
    rw [andmap, ormap, h2]
    exact ⟨andmap1_spec f xs s, ormap1_spec f xs s⟩
  | xs :: ys :: xss, hne =>
    have h2 := checkArgs_good f hl
    simp only [List.map_cons] at h2 ⊢
    rw [andmap, ormap, h2]
    · exact ⟨andmapLoop_spec f len n (xs :: ys :: xss) s hne hl hn, ormapLoop_spec f len n (xs :: ys :: xss) s hne hl hn⟩
    all_goals simp

theorem callAll_pure {f : Fn S} {g : List Sv → Sv} (hg : ∀ r s, f r s = .ok (g r, s)) : ∀ (rs : List (List Sv)) (s : S),
    callAll f rs s = .ok (rs.map g, s)
  | [], s => rfl
  | r :: rs, s => by rw [callAll, hg]; simp [callAll_pure hg rs]

theorem callUntil_pure {f : Fn S} {g : List Sv → Sv} (hg : ∀ r s, f r s = .ok (g r, s)) (s : S) : ∀ (rs : List (List Sv)),
    callUntil false f rs s = .ok (rs.all (fun r => truthy (g r)), s) ∧ callUntil true f rs s = .ok (rs.any (fun r => truthy (g r)), s)
  | [] => ⟨rfl, rfl⟩
  | r :: rs => by
    obtain ⟨h1, h2⟩ := callUntil_pure hg s rs
    rw [callUntil, callUntil, hg]
    cases ht : truthy (g r) <;> simp [ht, h1, h2]

/-- C27 for procedures without effects: the list of the values, their conjunction and their disjunction. -/
theorem C27_pure {f : Fn S} {g : List Sv → Sv} (hg : ∀ r s, f r s = .ok (g r, s)) {len n : Nat} {xss : List (List Sv)} (s : S)
    (hne : xss ≠ []) (hl : ∀ xs ∈ xss, xs.length = len) (hn : len < n) :
    map n (some f) (xss.map ofList) s = .ok (ofList ((rows len xss).map g), s) ∧
    andmap n (some f) (xss.map ofList) s = .ok (.bool ((rows len xss).all (fun r => truthy (g r))), s) ∧
    ormap n (some f) (xss.map ofList) s = .ok (.bool ((rows len xss).any (fun r => truthy (g r))), s) := by
  rw [C27_map f s hne hl hn, (C27_and_or f s hne hl hn).1, (C27_and_or f s hne hl hn).2, callAll_pure hg,
    (callUntil_pure hg s _).1, (callUntil_pure hg s _).2]
  exact ⟨rfl, rfl, rfl⟩

/-- C26 and C27: if the first argument is not a procedure, or an argument is not a proper list, or two lists have different
lengths, the result is an error for every procedure, also for one whose call would not be an error: it is never called. -/
theorem C27_bad_arguments (f : Option (Fn S)) (n : Nat) (vs : List Sv) (s : S) (h : f = none ∨ ¬ SameLength vs) :
    map n f vs s = .err ∧ forEach n f vs s = .err ∧ andmap n f vs s = .err ∧ ormap n f vs s = .err := by
  have hb := checkArgs_bad f vs h
  match vs with
  | [] => exact ⟨rfl, rfl, rfl, rfl⟩
  | [v] => simp [map, forEach, andmap, ormap, hb]
  | v :: w :: vs => simp [map, forEach, andmap, ormap, hb]

end

/-- (map + '(1 2) '(10 20)) with a counter of the calls as state -/
def plusCounting : Fn Nat
  | [.num a, .num b], s => .ok (.num (a + b), s + 1)
  | _, _ => .err

example : map 5 (some plusCounting) ([[.num 1#64, .num 2#64], [.num 10#64, .num 20#64]].map ofList) 0 =
    .ok (ofList [.num 11#64, .num 22#64], 2) := by
  rw [C27_map plusCounting (len := 2) 0 (by simp) (by simp) (by omega)]; decide

example : ¬ SameLength [ofList [.null], ofList []] := by
  rintro ⟨len, xss, h1, h2⟩
  match xss with
  | [] => simp at h1
  | [_] => simp at h1
  | _ :: _ :: _ :: _ => simp at h1
  | [a, b] =>
    simp only [List.map_cons, List.map_nil, List.cons.injEq, and_true] at h1
    have ha := congrArg length h1.1
    have hb := congrArg length h1.2
    rw [length_ofList, length_ofList] at ha hb
    have := h2 a (by simp)
    have := h2 b (by simp)
    simp at ha hb; omega

/-! ## C28 -/

theorem sub_small {w k : Word} (h : (k.toInt : Int) ≤ w.toInt + 9223372036854775808) (hk : 0 ≤ k.toInt) :
    ∃ r, Num.fx2Sub w k = .ok r ∧ r.toInt = w.toInt - k.toInt := by
  have hf := Num.fits_toInt w
  have hfits : Num.Fits (w.toInt - k.toInt) := by
    unfold Num.Fits at hf ⊢; omega
  exact ⟨BitVec.ofInt 64 (w.toInt - k.toInt), ((Num.C21_sub w k).ok_iff _).2 ⟨hfits, Num.toInt_ofInt_fits hfits⟩,
    Num.toInt_ofInt_fits hfits⟩

theorem add_one {w : Word} (h : w.toInt < 9223372036854775807) : ∃ r, Num.fx2Add w 1#64 = .ok r ∧ r.toInt = w.toInt + 1 := by
  have hf := Num.fits_toInt w
  have h1 : (1#64 : Word).toInt = 1 := by decide
  have hfits : Num.Fits (w.toInt + (1#64 : Word).toInt) := by
    unfold Num.Fits at hf ⊢; omega
  refine ⟨BitVec.ofInt 64 (w.toInt + (1#64 : Word).toInt), ((Num.C21_add w 1#64).ok_iff _).2 ⟨hfits, Num.toInt_ofInt_fits hfits⟩, ?_⟩
  rw [Num.toInt_ofInt_fits hfits, h1]

/-- the fixnum `i` as a value (specification) -/
def fix (i : Nat) : Sv := .num (BitVec.ofNat 64 i)

theorem word_of_toInt {w : Word} {i : Nat} (h : w.toInt = i) : w = BitVec.ofNat 64 i := by
  apply BitVec.eq_of_toNat_eq
  have h0 : (0 : Int) ≤ w.toInt := by omega
  have := BitVec.toInt_eq_toNat_cond w
  have h3 := w.isLt
  rw [BitVec.toNat_ofNat]
  split at this <;> omega

theorem gt_zero (w : Word) : Num.fx2Gt w 0#64 = true ↔ 0 < w.toInt := by
  rw [Num.fx2Gt, BitVec.slt_iff_toInt_lt]; rfl

theorem eq_iff (a b : Word) : Num.fx2Eq a b = true ↔ a.toInt = b.toInt := by
  rw [Num.fx2Eq, beq_iff_eq]; exact ⟨fun h => by rw [h], Num.eq_of_toInt⟩

theorem nonNeg_num (w : Word) : nonNeg (.num w) = true ↔ 0 ≤ w.toInt := by
  rw [nonNeg, BitVec.sle_iff_toInt_le]; rfl

theorem toNat_of_nonneg {w : Word} (h : 0 ≤ w.toInt) : w.toInt = w.toNat := by
  have := BitVec.toInt_eq_toNat_cond w
  split at this <;> omega

/-- a fixnum that is not negative (specification) -/
def IsIndex (v : Sv) : Prop := ∃ w : Word, v = .num w ∧ 0 ≤ w.toInt

theorem isIndex_iff (v : Sv) : IsIndex v ↔ nonNeg v = true := by
  cases v with
  | num w =>
    rw [nonNeg_num]
    exact ⟨fun ⟨w', h1, h2⟩ => by cases h1; exact h2, fun h => ⟨w, rfl, h⟩⟩
  | _ =>
    refine ⟨fun ⟨w', h1, h2⟩ => ?_, fun h => ?_⟩
    · cases h1
    · simp [nonNeg] at h

theorem iotaLoop_spec : ∀ (k m : Nat) (n : Word) (xs : Sv), n.toInt = (k : Int) - 1 → k < m →
    iotaLoop m n xs = .ok (chain ((List.range k).map fix) xs)
  | 0, m + 1, n, xs, hn, _ => by
    have h1 : ¬ Num.fx2Gt n 0#64 = true := by rw [gt_zero]; omega
    have h2 : ¬ Num.fx2Eq n 0#64 = true := by rw [eq_iff]; simp; omega
    rw [iotaLoop, if_neg h1, if_neg h2]; rfl
  | 1, m + 1, n, xs, hn, _ => by
    have h1 : ¬ Num.fx2Gt n 0#64 = true := by rw [gt_zero]; omega
    have h2 : Num.fx2Eq n 0#64 = true := by rw [eq_iff]; simp; omega
    rw [iotaLoop, if_neg h1, if_pos h2]; rfl
  | k + 2, m + 1, n, xs, hn, hm => by
    have h1 : Num.fx2Gt n 0#64 = true := by rw [gt_zero]; omega
    have e2 : (2#64 : Word).toInt = 2 := by decide
    have e1 : (1#64 : Word).toInt = 1 := by decide
    obtain ⟨r2, f2, g2⟩ := sub_small (w := n) (k := 2#64) (by omega) (by omega)
    obtain ⟨r1, f1, g1⟩ := sub_small (w := n) (k := 1#64) (by omega) (by omega)
    rw [iotaLoop, if_pos h1, f2, f1]
    simp only [Res.ok_bind]
    rw [iotaLoop_spec k m r2 _ (by omega) (by omega)]
    have hr1 : r1 = BitVec.ofNat 64 k := word_of_toInt (by omega)
    have hn' : n = BitVec.ofNat 64 (k + 1) := word_of_toInt (by omega)
    rw [List.range_succ, List.range_succ, List.map_append, List.map_append, chain_append, chain_append]
    simp [chain, fix, hr1, hn']

/-- C28, `iota`: 0, 1, ..., n-1 for every non-negative fixnum, an error for everything else. -/
theorem C28_iota (m : Nat) : (∀ w : Word, 0 ≤ w.toInt → w.toNat < m → iota m (.num w) = .ok (ofList ((List.range w.toNat).map fix))) ∧
    ∀ v, ¬ IsIndex v → iota m v = .err := by
  constructor
  · intro w h0 hm
    rw [iota, if_pos ((nonNeg_num w).2 h0)]
    have e1 : (1#64 : Word).toInt = 1 := by decide
    obtain ⟨r, f1, g1⟩ := sub_small (w := w) (k := 1#64) (by omega) (by omega)
    have hw := toNat_of_nonneg h0
    rw [f1, Res.ok_bind, iotaLoop_spec w.toNat m r .null (by omega) hm, ofList_chain]
  · intro v hv
    cases v with
    | num w => rw [iota, if_neg (by rw [← isIndex_iff]; exact hv)]
    | _ => rfl

example : iota 8 (.num 5#64) = .ok (ofList [fix 0, fix 1, fix 2, fix 3, fix 4]) ∧ iota 8 (.num (-1#64)) = .err := by decide

theorem makeLoop_spec (init : Sv) : ∀ (n : Nat) (l : Sv), makeLoop init n l = chain (List.replicate n init) l
  | 0, _ => rfl
  | n + 1, l => by rw [makeLoop, makeLoop_spec init n, List.replicate_succ', chain_append]; rfl

/-- C28, `make-list`: `n` copies for every non-negative fixnum, an error for everything else. -/
theorem C28_make_list (init : Sv) : (∀ w : Word, 0 ≤ w.toInt → makeList (.num w) init = .ok (ofList (List.replicate w.toNat init))) ∧
    ∀ v, ¬ IsIndex v → makeList v init = .err := by
  constructor
  · intro w h
    rw [makeList, if_pos (by rw [Num.fx2Ge, BitVec.sle_iff_toInt_le]; exact h), makeLoop_spec, ofList_chain]
  · intro v hv
    cases v with
    | num w =>
      rw [makeList, if_neg]
      intro h
      exact hv ((isIndex_iff _).2 h)
    | _ => rfl

example : makeList (.num 2#64) .null = .ok (ofList [.null, .null]) := by decide

theorem enumLoop_spec : ∀ (xs : List Sv) (i : Word) (acc : List Sv), 0 ≤ i.toInt → i.toInt + xs.length < 9223372036854775808 →
    enumLoop (ofList xs) i (ofList acc) =
      .ok (ofList (acc.reverse ++ (xs.zipIdx i.toInt.toNat).map fun p => .pair p.1 (fix p.2)))
  | [], i, acc, _, _ => by
    rw [ofList, enumLoop, reverseOnto_spec, ← ofList_chain]; simp
  | x :: xs, i, acc, hi, hl => by
    rw [List.length_cons] at hl
    obtain ⟨j, f1, g1⟩ := add_one (w := i) (by omega)
    rw [ofList, enumLoop, f1]
    simp only [Res.ok_bind]
    rw [show Sv.pair (.pair x (.num i)) (ofList acc) = ofList (.pair x (.num i) :: acc) from rfl,
      enumLoop_spec xs j _ (by omega) (by omega)]
    have hi' : i = BitVec.ofNat 64 i.toInt.toNat := word_of_toInt (by omega)
    have hj : j.toInt.toNat = i.toInt.toNat + 1 := by omega
    rw [hj, List.zipIdx_cons, List.map_cons, List.reverse_cons, List.append_assoc]
    simp only [fix, List.singleton_append]
    rw [← hi']

/-- C28, `enumerate`: every element paired with its index (lists of fewer than 2^63 elements). -/
theorem C28_enumerate (xs : List Sv) (h : xs.length < 9223372036854775808) :
    enumerate (ofList xs) = .ok (ofList (xs.zipIdx.map fun p => .pair p.1 (fix p.2))) := by
  rw [enumerate, listp_ofList, if_pos rfl]
  simpa [ofList] using enumLoop_spec xs 0#64 [] (by decide) (by simpa using by omega)

/-- C26, `enumerate` of anything else is an error. -/
theorem C28_enumerate_improper (v : Sv) (h : ∀ xs, v ≠ ofList xs) : enumerate v = .err := by
  obtain ⟨xs, tl, rfl, ht⟩ := chain_exists v
  rw [enumerate, listp_chain ht]
  have : tl ≠ .null := by rintro rfl; exact h xs (ofList_chain xs).symm
  simp [this]

example : enumerate (ofList [.atom 7, .atom 8]) = .ok (ofList [.pair (.atom 7) (fix 0), .pair (.atom 8) (fix 1)]) ∧
    enumerate (.pair .null (.atom 1)) = .err := by decide

/-! ## C29 -/

/-- an element that may be missing: if so, an error (specification) -/
def orErr : Option Sv → Res Sv
  | some x => .ok x
  | none => .err

theorem refLoop_spec (k : Word) {tl : Sv} (ht : NotPair tl) : ∀ (xs : List Sv) (i : Word), 0 ≤ i.toInt → i.toInt ≤ k.toInt →
    refLoop k (chain xs tl) i = orErr xs[(k.toInt - i.toInt).toNat]?
  | [], i, _, _ => by
    cases tl with
    | pair a d => exact absurd rfl (ht a d)
    | _ => rfl
  | x :: xs, i, hi, hk => by
    rw [chain, refLoop]
    by_cases h : i.toInt = k.toInt
    · rw [if_pos ((eq_iff i k).2 h), h]; simp [orErr]
    · rw [if_neg (fun h' => h ((eq_iff i k).1 h'))]
      have hf := Num.fits_toInt k
      unfold Num.Fits at hf
      obtain ⟨j, f1, g1⟩ := add_one (w := i) (by omega)
      rw [f1, Res.ok_bind, refLoop_spec k ht xs j (by omega) (by omega)]
      have : (k.toInt - i.toInt).toNat = (k.toInt - j.toInt).toNat + 1 := by omega
      rw [this, List.getElem?_cons_succ]

/-- C29, `list-ref`: for every object and every index, the element at the index of the chain of pairs, and an error for an
index out of range or an index that is not a non-negative fixnum. -/
theorem C29_list_ref (xs : List Sv) {tl : Sv} (ht : NotPair tl) (w : Word) (v : Sv) :
    (0 ≤ w.toInt → listRef (chain xs tl) (.num w) = orErr xs[w.toNat]?) ∧ (¬ IsIndex v → listRef (chain xs tl) v = .err) := by
  constructor
  · intro h
    rw [listRef, if_pos ((nonNeg_num w).2 h), refLoop_spec w ht xs 0#64 (by decide) (by simpa using h)]
    have := toNat_of_nonneg h
    rw [show (w.toInt - (0#64 : Word).toInt).toNat = w.toNat by simp; omega]
  · intro h
    cases v with
    | num w => rw [listRef, if_neg (by rw [← isIndex_iff]; exact h)]
    | _ => rfl

example : listRef (ofList [.atom 4, .atom 5]) (.num 1#64) = .ok (.atom 5) ∧ listRef (ofList [.atom 4, .atom 5]) (.num 2#64) = .err ∧
    listRef (ofList [.atom 4]) (.num (-1#64)) = .err := by decide

theorem accLoop_spec : ∀ (xs : List Sv) (p : Nat), accLoop (ofList xs) (p + 1) = orErr xs[p]?
  | [], _ => rfl
  | x :: xs, 0 => rfl
  | x :: xs, p + 1 => by
    rw [ofList, accLoop, if_neg (by omega), Nat.add_sub_cancel, accLoop_spec xs p, List.getElem?_cons_succ]

/-- C29, `first` ... `tenth` on lists -/
theorem C29_accessors (xs : List Sv) :
    first (ofList xs) = orErr xs[0]? ∧ second (ofList xs) = orErr xs[1]? ∧ third (ofList xs) = orErr xs[2]? ∧
    fourth (ofList xs) = orErr xs[3]? ∧ fifth (ofList xs) = orErr xs[4]? ∧ sixth (ofList xs) = orErr xs[5]? ∧
    seventh (ofList xs) = orErr xs[6]? ∧ eighth (ofList xs) = orErr xs[7]? ∧ ninth (ofList xs) = orErr xs[8]? ∧
    tenth (ofList xs) = orErr xs[9]? := by
  have h : ∀ p, accessor (p + 1) (ofList xs) = orErr xs[p]? := fun p => by
    rw [accessor, listp_ofList, if_pos rfl, accLoop_spec]
  refine ⟨?_, h 1, h 2, h 3, h 4, h 5, h 6, h 7, h 8, h 9⟩
  rw [first, listp_ofList, if_pos rfl]
  cases xs <;> rfl

/-- C26, the accessors refuse anything but lists -/
theorem C29_accessors_improper (v : Sv) (h : ∀ xs, v ≠ ofList xs) (p : Nat) : first v = .err ∧ accessor p v = .err := by
  obtain ⟨xs, tl, rfl, ht⟩ := chain_exists v
  have : tl ≠ .null := by rintro rfl; exact h xs (ofList_chain xs).symm
  rw [first, accessor, listp_chain ht]
  simp [this]

/-- C29, `cons*`: the last argument is the tail. -/
theorem C29_cons_star (xs : List Sv) (tl : Sv) :
    (match xs ++ [tl] with | [] => .null | y :: ys => consStar y ys) = chain xs tl := by
  have : ∀ (xs : List Sv) (x : Sv), consStar x (xs ++ [tl]) = .pair x (chain xs tl) := by
    intro xs
    induction xs with
    | nil => intro x; rfl
    | cons y ys ih => intro x; rw [List.cons_append, consStar, ih]; rfl
  cases xs with
  | nil => rfl
  | cons x xs => exact this xs x

example : consStar (.atom 1) [.atom 2, ofList [.atom 3]] = ofList [.atom 1, .atom 2, .atom 3] := by decide

/-- C29, `member` on a list: the first element `equal?` to the key, or #f if there is none. -/
theorem C29_member_partial (eqp : Sv → Sv → Bool) (k : Sv) : ∀ xs : List Sv,
    member eqp k (ofList xs) = .ok ((xs.find? fun x => eqp x k).getD (.bool false))
  | [] => rfl
  | x :: xs => by
    rw [ofList, member, C29_member_partial eqp k xs, List.find?_cons]
    cases eqp x k <;> rfl

/-- C29 fails for `member`: it returns the element found instead of a true value, so it cannot find #f. -/
theorem C29_negated_member (eqp : Sv → Sv → Bool) (h : ∀ x, eqp x x = true) (xs : List Sv) :
    member eqp (.bool false) (ofList (.bool false :: xs)) = .ok (.bool false) := by
  rw [ofList, member, h]; rfl

/-- C29, `remove`: all elements `equal?` to the key are left out, the others keep their order. -/
theorem C29_remove (eqp : Sv → Sv → Bool) (k : Sv) : ∀ xs : List Sv,
    remove eqp k (ofList xs) = .ok (ofList (xs.filter fun x => !eqp x k))
  | [] => rfl
  | x :: xs => by
    rw [ofList, remove, C29_remove eqp k xs, List.filter_cons]
    cases eqp x k <;> rfl

/-- C29, `remove*`: all elements `equal?` to one of the keys are left out. -/
theorem C29_remove_star (eqp : Sv → Sv → Bool) (ks xs : List Sv) :
    removeStar eqp (ofList ks) (ofList xs) = .ok (ofList (xs.filter fun x => ks.all fun k => !eqp x k)) := by
  rw [removeStar, listp_ofList, if_pos rfl]
  induction ks generalizing xs with
  | nil => simp [ofList, removeLoop]
  | cons k ks ih =>
    rw [ofList, removeLoop]
    cases xs with
    | nil => rfl
    | cons x xs =>
      rw [if_neg (by simp [ofList]), C29_remove, Res.ok_bind, ih, List.filter_filter]
      congr 3
      funext y
      simp [Bool.and_comm]

example : removeStar (· == ·) (ofList [.atom 1, .atom 2]) (ofList [.atom 1, .atom 3, .atom 2, .atom 1]) = .ok (ofList [.atom 3]) := by decide

section
variable {S : Type}

/-- keep the elements for which the procedure returns a true value (specification) -/
def keep (f : Fn S) : List Sv → S → Res (List Sv × S)
  | [], s => .ok ([], s)
  | x :: xs, s => do
    let a ← f [x] s
    let b ← keep f xs a.2
    pure (if truthy a.1 then x :: b.1 else b.1, b.2)

theorem filterLoop_spec (f : Fn S) : ∀ (xs acc : List Sv) (s : S),
    filterLoop f (ofList xs) (ofList acc) s = (keep f xs s >>= fun r => .ok (ofList (acc.reverse ++ r.1), r.2))
  | [], acc, s => by rw [ofList, filterLoop, reverse_ofList]; simp [keep]
  | x :: xs, acc, s => by
    rw [ofList, filterLoop, keep]
    cases f [x] s with
    | ok a =>
      simp only [Res.ok_bind]
      cases ht : truthy a.1 with
      | true =>
        rw [if_pos rfl, show Sv.pair x (ofList acc) = ofList (x :: acc) from rfl, filterLoop_spec f xs (x :: acc)]
        cases keep f xs a.2 <;> simp
      | false =>
        rw [if_neg (by simp), filterLoop_spec f xs acc]
        cases keep f xs a.2 <;> simp
    | _ => rfl

/-- C29, `filter` -/
theorem C29_filter (f : Fn S) (xs : List Sv) (s : S) :
    filter f (ofList xs) s = (keep f xs s >>= fun r => .ok (ofList r.1, r.2)) := by
  rw [filter]; simpa [ofList] using filterLoop_spec f xs [] s

/-- C29, `filter` with a procedure without effects -/
theorem C29_filter_pure {f : Fn S} {g : Sv → Sv} (hg : ∀ x s, f [x] s = .ok (g x, s)) (xs : List Sv) (s : S) :
    filter f (ofList xs) s = .ok (ofList (xs.filter fun x => truthy (g x)), s) := by
  have : ∀ xs, keep f xs s = .ok (xs.filter fun x => truthy (g x), s) := by
    intro xs
    induction xs with
    | nil => rfl
    | cons x xs ih => rw [keep, hg]; simp [ih, List.filter_cons]
  rw [C29_filter, this]; rfl

/-- C29, `foldl` calls the procedure on the accumulator and the elements from left to right (specification) -/
def foldLeft (f : Fn S) : Sv → List Sv → S → Res (Sv × S)
  | acc, [], s => .ok (acc, s)
  | acc, x :: xs, s => f [acc, x] s >>= fun a => foldLeft f a.1 xs a.2

/-- C29, `foldl` -/
theorem C29_foldl (f : Fn S) : ∀ (xs : List Sv) (acc : Sv) (s : S), foldl f acc (ofList xs) s = foldLeft f acc xs s
  | [], _, _ => rfl
  | x :: xs, acc, s => by
    rw [ofList, foldl, foldLeft]
    cases f [acc, x] s with
    | ok a => exact C29_foldl f xs a.1 a.2
    | _ => rfl

/-- C29, `foldr` is `foldl` over the reversed list (calls from right to left, accumulator first). -/
theorem C29_foldr (f : Fn S) (acc : Sv) (xs : List Sv) (s : S) : foldr f acc (ofList xs) s = foldLeft f acc xs.reverse s := by
  have happ : ∀ (ys : List Sv) (x a : Sv) (s : S), foldLeft f a (ys ++ [x]) s = (foldLeft f a ys s >>= fun r => f [r.1, x] r.2) := by
    intro ys
    induction ys with
    | nil =>
      intro x a s
      simp only [List.nil_append, foldLeft, Res.ok_bind]
      cases f [a, x] s <;> rfl
    | cons y ys ih =>
      intro x a s
      rw [List.cons_append, foldLeft, foldLeft]
      cases f [a, y] s with
      | ok r => exact ih x r.1 r.2
      | _ => rfl
  induction xs with
  | nil => rfl
  | cons x xs ih => rw [ofList, foldr, List.reverse_cons, happ, ih]

/-- C29, folds with a procedure without effects -/
theorem C29_folds_pure {f : Fn S} {g : Sv → Sv → Sv} (hg : ∀ a x s, f [a, x] s = .ok (g a x, s)) (acc : Sv) (xs : List Sv) (s : S) :
    foldl f acc (ofList xs) s = .ok (xs.foldl g acc, s) ∧ foldr f acc (ofList xs) s = .ok (xs.foldr (fun x a => g a x) acc, s) := by
  have : ∀ xs acc, foldLeft f acc xs s = .ok (xs.foldl g acc, s) := by
    intro xs
    induction xs with
    | nil => intro acc; rfl
    | cons x xs ih => intro acc; rw [foldLeft, hg, Res.ok_bind, ih]; rfl
  rw [C29_foldl, C29_foldr, this, this, List.foldl_reverse]
  exact ⟨rfl, rfl⟩

end

/-- C29, `assoc`: the first entry whose key is `equal?` to the key, or #f. -/
theorem C29_assoc (eqp : Sv → Sv → Bool) (k : Sv) : ∀ es : List (Sv × Sv),
    assoc eqp k (ofList (es.map fun e => .pair e.1 e.2)) =
      .ok (((es.find? fun e => eqp k e.1).map fun e => Sv.pair e.1 e.2).getD (.bool false))
  | [] => rfl
  | e :: es => by
    rw [List.map_cons, ofList, assoc, C29_assoc eqp k es, List.find?_cons]
    cases eqp k e.1 <;> rfl

theorem indexLoop_spec (eqp : Sv → Sv → Bool) (k : Sv) : ∀ (xs : List Sv) (i : Word), 0 ≤ i.toInt →
    i.toInt + xs.length < 9223372036854775808 →
    indexLoop eqp k (ofList xs) i = .ok (((xs.findIdx? fun x => eqp k x).map fun j => fix (i.toInt.toNat + j)).getD (.bool false))
  | [], i, _, _ => by simp [ofList, indexLoop]
  | x :: xs, i, hi, hl => by
    rw [List.length_cons] at hl
    rw [ofList, indexLoop, List.findIdx?_cons]
    cases he : eqp k x with
    | true =>
      have hi' : i = BitVec.ofNat 64 i.toInt.toNat := word_of_toInt (by omega)
      simp only [if_true, Option.map_some, Option.getD_some, Nat.add_zero, fix]
      rw [← hi']
    | false =>
      obtain ⟨j, f1, g1⟩ := add_one (w := i) (by omega)
      simp only [Bool.false_eq_true, if_false]
      rw [f1, Res.ok_bind, indexLoop_spec eqp k xs j (by omega) (by omega)]
      cases (xs.findIdx? fun x => eqp k x) with
      | none => simp only [Option.map_none, Option.getD_none]
      | some t =>
        simp only [Option.map_some, Option.getD_some]
        rw [show j.toInt.toNat + t = i.toInt.toNat + (t + 1) by omega]

/-- C29, `index-of`: the position of the first element `equal?` to the key, or #f (lists of fewer than 2^63 elements). -/
theorem C29_index_of (eqp : Sv → Sv → Bool) (k : Sv) (xs : List Sv) (h : xs.length < 9223372036854775808) :
    indexOf eqp k (ofList xs) = .ok (((xs.findIdx? fun x => eqp k x).map fix).getD (.bool false)) := by
  rw [indexOf, indexLoop_spec eqp k xs 0#64 (by decide) (by simpa using by omega)]
  simp

example : indexOf (· == ·) (.atom 3) (ofList [.atom 1, .atom 3]) = .ok (fix 1) := by decide

theorem setLoop_spec (k : Word) (v : Sv) {tl : Sv} (ht : NotPair tl) : ∀ (xs : List Sv) (i : Word) (acc : List Sv), 0 ≤ i.toInt →
    i.toInt ≤ k.toInt → setLoop k v (chain xs tl) i (ofList acc) =
      if (k.toInt - i.toInt).toNat < xs.length ∧ tl = .null then .ok (ofList (acc.reverse ++ xs.set (k.toInt - i.toInt).toNat v))
      else .err
  | [], i, acc, _, _ => by
    cases tl with
    | pair a d => exact absurd rfl (ht a d)
    | _ => simp [chain, setLoop]
  | x :: xs, i, acc, hi, hk => by
    rw [chain, setLoop]
    by_cases h : i.toInt = k.toInt
    · rw [if_pos ((eq_iff i k).2 h), reverse_ofList, Res.ok_bind, append, listp_ofList, if_pos rfl,
        show Sv.pair v (chain xs tl) = chain (v :: xs) tl from rfl, listp_chain ht]
      by_cases hn : tl = .null
      · subst hn
        rw [if_pos (by simp), append2_ofList, ← chain_append, ← ofList_chain]
        simp [h]
      · simp [hn]
    · rw [if_neg (fun h' => h ((eq_iff i k).1 h'))]
      have hf := Num.fits_toInt k
      unfold Num.Fits at hf
      obtain ⟨j, f1, g1⟩ := add_one (w := i) (by omega)
      rw [f1, Res.ok_bind, show Sv.pair x (ofList acc) = ofList (x :: acc) from rfl,
        setLoop_spec k v ht xs j (x :: acc) (by omega) (by omega)]
      have : (k.toInt - i.toInt).toNat = (k.toInt - j.toInt).toNat + 1 := by omega
      rw [this]
      simp

/-- C29, `list-set`: the list with one element replaced; an error if the index is out of range, is not a non-negative
fixnum, or the object is not a proper list. -/
theorem C29_list_set (xs : List Sv) {tl : Sv} (ht : NotPair tl) (w : Word) (u v : Sv) :
    (0 ≤ w.toInt → listSet (chain xs tl) (.num w) v =
      if w.toNat < xs.length ∧ tl = .null then .ok (ofList (xs.set w.toNat v)) else .err) ∧
    (¬ IsIndex u → listSet (chain xs tl) u v = .err) := by
  constructor
  · intro h
    have := setLoop_spec w v ht xs 0#64 [] (by decide) (by simpa using h)
    have hw := toNat_of_nonneg h
    rw [show (w.toInt - (0#64 : Word).toInt).toNat = w.toNat by simp; omega] at this
    rw [listSet, if_pos ((nonNeg_num w).2 h)]
    simpa [ofList] using this
  · intro h
    cases u with
    | num w => rw [listSet, if_neg (by rw [← isIndex_iff]; exact h)]
    | _ => rfl

example : listSet (ofList [.atom 1, .atom 2]) (.num 1#64) (.atom 9) = .ok (ofList [.atom 1, .atom 9]) ∧
    listSet (ofList [.atom 1, .atom 2]) (.num 2#64) (.atom 9) = .err := by decide

/-! ### C26 for the library -/

/-- C26: on an improper list the library procedures that walk the whole list signal an error; those that stop early may
return before they see the improper end.  None has undefined behaviour. -/
theorem C26_library_improper {S : Type} (xs : List Sv) {tl : Sv} (ht : NotPair tl) (hn : tl ≠ .null) (eqp : Sv → Sv → Bool) (k : Sv)
    {f : Fn S} (hf : ∀ r s, f r s ≠ .ub ∧ f r s ≠ .oof) (acc : Sv) (s : S) :
    remove eqp k (chain xs tl) = .err ∧ filter f (chain xs tl) s = .err ∧ foldl f acc (chain xs tl) s = .err ∧
    foldr f acc (chain xs tl) s = .err ∧
    (member eqp k (chain xs tl) = .err ∨ ∃ x ∈ xs, eqp x k = true ∧ member eqp k (chain xs tl) = .ok x) := by
  refine ⟨?_, ?_, ?_, ?_, ?_⟩
  · induction xs with
    | nil =>
      cases tl with
      | pair a d => exact absurd rfl (ht a d)
      | null => exact absurd rfl hn
      | _ => rfl
    | cons x xs ih => rw [chain, remove, ih]; cases eqp x k <;> rfl
  · rw [filter]
    generalize Sv.null = acc
    induction xs generalizing acc s with
    | nil =>
      cases tl with
      | pair a d => exact absurd rfl (ht a d)
      | null => exact absurd rfl hn
      | _ => rfl
    | cons x xs ih =>
      rw [chain, filterLoop]
      have := hf [x] s
      cases hfx : f [x] s with
      | ok a => simp only [Res.ok_bind, ih, ite_self]
      | err => rfl
      | ub => exact absurd hfx this.1
      | oof => exact absurd hfx this.2
  · induction xs generalizing acc s with
    | nil =>
      cases tl with
      | pair a d => exact absurd rfl (ht a d)
      | null => exact absurd rfl hn
      | _ => rfl
    | cons x xs ih =>
      rw [chain, foldl]
      have := hf [acc, x] s
      cases hfx : f [acc, x] s with
      | ok a => simp only [Res.ok_bind, ih]
      | err => rfl
      | ub => exact absurd hfx this.1
      | oof => exact absurd hfx this.2
  · induction xs with
    | nil =>
      cases tl with
      | pair a d => exact absurd rfl (ht a d)
      | null => exact absurd rfl hn
      | _ => rfl
    | cons x xs ih => rw [chain, foldr, ih]; rfl
  · induction xs with
    | nil =>
      left
      cases tl with
      | pair a d => exact absurd rfl (ht a d)
      | null => exact absurd rfl hn
      | _ => rfl
    | cons x xs ih =>
      rw [chain, member]
      cases he : eqp x k with
      | true => exact Or.inr ⟨x, by simp, he, rfl⟩
      | false =>
        rcases ih with h | ⟨y, h1, h2, h3⟩
        · exact Or.inl (by simpa using h)
        · exact Or.inr ⟨y, by simp [h1], h2, by simpa using h3⟩

example : NotPair (.atom 5) ∧ Sv.atom 5 ≠ .null ∧ remove (· == ·) (.atom 1) (chain [.atom 2] (.atom 5)) = .err := by
  refine ⟨?_, by decide, by decide⟩
  intro a d; simp

end Minim.LS
