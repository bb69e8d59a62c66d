import Verif.Prelude
import Mathlib.Tactic.SplitIfs

set_option autoImplicit false

/-!
# C102, C103: argument checks, proofs
-/

namespace Minim.Pre

/-! ### lemmas -/

@[simp] theorem sat_0 (v : V) : sat "any" v = true := rfl
@[simp] theorem ctc_0 : (ctc "any").isSome = true := rfl
@[simp] theorem sat_1 (v : V) : sat "pair?" v = isPair v := rfl
@[simp] theorem ctc_1 : (ctc "pair?").isSome = true := rfl
@[simp] theorem sat_2 (v : V) : sat "number?" v = isInt v := rfl
@[simp] theorem ctc_2 : (ctc "number?").isSome = true := rfl
@[simp] theorem sat_3 (v : V) : sat "integer?" v = isInt v := rfl
@[simp] theorem ctc_3 : (ctc "integer?").isSome = true := rfl
@[simp] theorem sat_4 (v : V) : sat "non-negative-integer?" v = isNat v := rfl
@[simp] theorem ctc_4 : (ctc "non-negative-integer?").isSome = true := rfl
@[simp] theorem sat_5 (v : V) : sat "an integer between 0 and 255" v = isByte v := rfl
@[simp] theorem ctc_5 : (ctc "an integer between 0 and 255").isSome = true := rfl
@[simp] theorem sat_6 (v : V) : sat "symbol?" v = isSym v := rfl
@[simp] theorem ctc_6 : (ctc "symbol?").isSome = true := rfl
@[simp] theorem sat_7 (v : V) : sat "list of symbols" v = (isList v && (elems v).all isSym) := rfl
@[simp] theorem ctc_7 : (ctc "list of symbols").isSome = true := rfl
@[simp] theorem sat_8 (v : V) : sat "string?" v = isStr v := rfl
@[simp] theorem ctc_8 : (ctc "string?").isSome = true := rfl
@[simp] theorem sat_9 (v : V) : sat "char?" v = isChr v := rfl
@[simp] theorem ctc_9 : (ctc "char?").isSome = true := rfl
@[simp] theorem sat_10 (v : V) : sat "procedure?" v = isProc v := rfl
@[simp] theorem ctc_10 : (ctc "procedure?").isSome = true := rfl
@[simp] theorem sat_11 (v : V) : sat "list?" v = isList v := rfl
@[simp] theorem ctc_11 : (ctc "list?").isSome = true := rfl
@[simp] theorem sat_12 (v : V) : sat "vector?" v = isVec v := rfl
@[simp] theorem ctc_12 : (ctc "vector?").isSome = true := rfl
@[simp] theorem sat_13 (v : V) : sat "box?" v = isBox v := rfl
@[simp] theorem ctc_13 : (ctc "box?").isSome = true := rfl
@[simp] theorem sat_14 (v : V) : sat "boolean?" v = isBool v := rfl
@[simp] theorem ctc_14 : (ctc "boolean?").isSome = true := rfl
@[simp] theorem sat_15 (v : V) : sat "input-port?" v = isIn v := rfl
@[simp] theorem ctc_15 : (ctc "input-port?").isSome = true := rfl
@[simp] theorem sat_16 (v : V) : sat "output-port?" v = isOut v := rfl
@[simp] theorem ctc_16 : (ctc "output-port?").isSome = true := rfl
@[simp] theorem sat_17 (v : V) : sat "string-port?" v = isStrPort v := rfl
@[simp] theorem ctc_17 : (ctc "string-port?").isSome = true := rfl
@[simp] theorem sat_18 (v : V) : sat "record-type-descriptor?" v = isRtd v := rfl
@[simp] theorem ctc_18 : (ctc "record-type-descriptor?").isSome = true := rfl
@[simp] theorem sat_19 (v : V) : sat "record?" v = isRecord v := rfl
@[simp] theorem ctc_19 : (ctc "record?").isSome = true := rfl
@[simp] theorem sat_20 (v : V) : sat "$record-value?" v = isRcd v := rfl
@[simp] theorem ctc_20 : (ctc "$record-value?").isSome = true := rfl
@[simp] theorem sat_21 (v : V) : sat "hashtable?" v = isTable v := rfl
@[simp] theorem ctc_21 : (ctc "hashtable?").isSome = true := rfl
@[simp] theorem sat_22 (v : V) : sat "environment?" v = isEnv v := rfl
@[simp] theorem ctc_22 : (ctc "environment?").isSome = true := rfl
@[simp] theorem sat_23 (v : V) : sat "syntax?" v = isStx v := rfl
@[simp] theorem ctc_23 : (ctc "syntax?").isSome = true := rfl
@[simp] theorem satc_0 (v : V) : sat "(and output-port? string-port?)" v = (isOut v && isStrPort v) := rfl
@[simp] theorem ctcc_0 : (ctc "(and output-port? string-port?)").isSome = true := rfl
@[simp] theorem satc_1 (v : V) : sat "(pairof (pairof (pairof any pair?) any) any)" v = (isPair v && (isPair (V.car v) && (isPair (V.car (V.car v)) && true && isPair (V.cdr (V.car (V.car v)))) && true) && true) := rfl
@[simp] theorem ctcc_1 : (ctc "(pairof (pairof (pairof any pair?) any) any)").isSome = true := rfl
@[simp] theorem satc_2 (v : V) : sat "(pairof (pairof (pairof pair? any) any) any)" v = (isPair v && (isPair (V.car v) && (isPair (V.car (V.car v)) && isPair (V.car (V.car (V.car v))) && true) && true) && true) := rfl
@[simp] theorem ctcc_2 : (ctc "(pairof (pairof (pairof pair? any) any) any)").isSome = true := rfl
@[simp] theorem satc_3 (v : V) : sat "(pairof (pairof any (pairof any pair?)) any)" v = (isPair v && (isPair (V.car v) && true && (isPair (V.cdr (V.car v)) && true && isPair (V.cdr (V.cdr (V.car v))))) && true) := rfl
@[simp] theorem ctcc_3 : (ctc "(pairof (pairof any (pairof any pair?)) any)").isSome = true := rfl
@[simp] theorem satc_4 (v : V) : sat "(pairof (pairof any (pairof pair? any)) any)" v = (isPair v && (isPair (V.car v) && true && (isPair (V.cdr (V.car v)) && isPair (V.car (V.cdr (V.car v))) && true)) && true) := rfl
@[simp] theorem ctcc_4 : (ctc "(pairof (pairof any (pairof pair? any)) any)").isSome = true := rfl
@[simp] theorem satc_5 (v : V) : sat "(pairof (pairof any pair?) any)" v = (isPair v && (isPair (V.car v) && true && isPair (V.cdr (V.car v))) && true) := rfl
@[simp] theorem ctcc_5 : (ctc "(pairof (pairof any pair?) any)").isSome = true := rfl
@[simp] theorem satc_6 (v : V) : sat "(pairof (pairof pair? any) any)" v = (isPair v && (isPair (V.car v) && isPair (V.car (V.car v)) && true) && true) := rfl
@[simp] theorem ctcc_6 : (ctc "(pairof (pairof pair? any) any)").isSome = true := rfl
@[simp] theorem satc_7 (v : V) : sat "(pairof any (pairof (pairof any pair?) any))" v = (isPair v && true && (isPair (V.cdr v) && (isPair (V.car (V.cdr v)) && true && isPair (V.cdr (V.car (V.cdr v)))) && true)) := rfl
@[simp] theorem ctcc_7 : (ctc "(pairof any (pairof (pairof any pair?) any))").isSome = true := rfl
@[simp] theorem satc_8 (v : V) : sat "(pairof any (pairof (pairof pair? any) any))" v = (isPair v && true && (isPair (V.cdr v) && (isPair (V.car (V.cdr v)) && isPair (V.car (V.car (V.cdr v))) && true) && true)) := rfl
@[simp] theorem ctcc_8 : (ctc "(pairof any (pairof (pairof pair? any) any))").isSome = true := rfl
@[simp] theorem satc_9 (v : V) : sat "(pairof any (pairof any (pairof any pair?)))" v = (isPair v && true && (isPair (V.cdr v) && true && (isPair (V.cdr (V.cdr v)) && true && isPair (V.cdr (V.cdr (V.cdr v)))))) := rfl
@[simp] theorem ctcc_9 : (ctc "(pairof any (pairof any (pairof any pair?)))").isSome = true := rfl
@[simp] theorem satc_10 (v : V) : sat "(pairof any (pairof any (pairof pair? any)))" v = (isPair v && true && (isPair (V.cdr v) && true && (isPair (V.cdr (V.cdr v)) && isPair (V.car (V.cdr (V.cdr v))) && true))) := rfl
@[simp] theorem ctcc_10 : (ctc "(pairof any (pairof any (pairof pair? any)))").isSome = true := rfl
@[simp] theorem satc_11 (v : V) : sat "(pairof any (pairof any pair?))" v = (isPair v && true && (isPair (V.cdr v) && true && isPair (V.cdr (V.cdr v)))) := rfl
@[simp] theorem ctcc_11 : (ctc "(pairof any (pairof any pair?))").isSome = true := rfl
@[simp] theorem satc_12 (v : V) : sat "(pairof any (pairof pair? any))" v = (isPair v && true && (isPair (V.cdr v) && isPair (V.car (V.cdr v)) && true)) := rfl
@[simp] theorem ctcc_12 : (ctc "(pairof any (pairof pair? any))").isSome = true := rfl
@[simp] theorem satc_13 (v : V) : sat "(pairof any pair?)" v = (isPair v && true && isPair (V.cdr v)) := rfl
@[simp] theorem ctcc_13 : (ctc "(pairof any pair?)").isSome = true := rfl
@[simp] theorem satc_14 (v : V) : sat "(pairof pair? any)" v = (isPair v && isPair (V.car v) && true) := rfl
@[simp] theorem ctcc_14 : (ctc "(pairof pair? any)").isSome = true := rfl

theorem rec_of {v : V} (h : isRcd v = false) : isRecord v = false := by cases v <;> simp_all [isRcd, isRecord]

/-- Proves that a procedure of at most four arguments reports what is wrong. -/
macro "report" "[" ts:Lean.Parser.Tactic.simpLemma,* "]" : tactic => `(tactic| (
  intro args h
  rcases args with _ | ⟨a, _ | ⟨b, _ | ⟨c, _ | ⟨d, _ | ⟨e, t⟩⟩⟩⟩⟩
  all_goals first
    | (exfalso; simp [Sig.accepts] at h; done)
    | (exfalso; simp [Sig.accepts] at h; omega)
    | (simp only [fix1, fix2, fix3, $ts,*]
       constructor <;> (try dsimp only) <;> (try split_ifs) <;> (try dsimp only) <;> (try split_ifs) <;>
         simp_all [Accurate, Complete, Sig.legal, Sig.blames, Sig.at, Sig.inside, Sig.outside, rec_of])))


theorem isNat_iff {v : V} : isNat v = true ↔ ∃ n : Int, 0 ≤ n ∧ v = .int n := by
  cases v <;> simp [isNat]

/-- Proves it for procedures that take an index. -/
macro "ranged" "[" ts:Lean.Parser.Tactic.simpLemma,* "]" : tactic => `(tactic| (
  intro args h
  rcases args with _ | ⟨a, _ | ⟨b, _ | ⟨c, _ | ⟨d, t⟩⟩⟩⟩
  all_goals first
    | (exfalso; simp [Sig.accepts] at h; done)
    | (exfalso; simp [Sig.accepts] at h; omega)
    | (simp only [fix2, fix3, raiseRange, $ts,*]
       cases hb : isNat b
       · constructor <;> split_ifs <;> simp_all [Accurate, Complete, Sig.legal, Sig.blames, Sig.at, Sig.inside, Sig.outside]
       · obtain ⟨n, hn, rfl⟩ := isNat_iff.1 hb
         constructor <;> split_ifs <;> simp_all [Accurate, Complete, Sig.legal, Sig.blames, Sig.at, Sig.inside, Sig.outside, num] <;> omega)))

theorem legal_all {s : Sig} {c : String} : ∀ (args : List V) (k : Nat), (∀ i, k ≤ i → s.at i = c) → s.legal k args = args.all (sat c)
  | [], _, _ => rfl
  | v :: vs, k, h => by
    simp only [Sig.legal, List.all_cons, h k (Nat.le_refl k), legal_all vs (k + 1) fun i hi => h i (by omega)]

theorem blames_all {s : Sig} {c : String} {v : V} : ∀ (args : List V) (k : Nat), (∀ i, k ≤ i → s.at i = c) → v ∈ args → sat c v = false → s.blames v k args = true
  | [], _, _, h, _ => by simp at h
  | a :: as, k, h, hm, hs => by
    simp only [Sig.blames, Bool.or_eq_true, h k (Nat.le_refl k)]
    rcases List.mem_cons.1 hm with e | e
    · left; simp [← e, hs]
    · right; exact blames_all as (k + 1) (fun i hi => h i (by omega)) e hs

/-- A report of an argument, by a procedure all of whose arguments have one contract. -/
theorem accurate_uniform {r : Row} {c : String} {args : List V} {v : V} (hs : ∀ i, r.sig.at i = c) (hc : (ctc c).isSome = true) (hm : v ∈ args) (hv : sat c v = false) :
    Accurate r args (.argument r.name c v) = true := by
  simp [Accurate, hc, hv, blames_all args 0 (fun i _ => hs i) hm hv]

theorem complete_uniform {r : Row} {c : String} {args : List V} {f : String} {as : List V} (hs : ∀ i, r.sig.at i = c) (hb : r.sig.inside args = true) (h : ∀ v ∈ args, sat c v = true) :
    Complete r args (.go f as) = true := by
  simp only [Complete, Bool.and_eq_true]
  exact ⟨by rw [legal_all args 0 fun i _ => hs i]; exact List.all_eq_true.2 h, hb⟩

theorem at_rest (c : String) : ∀ i, ({ req := [], rest := some c } : Sig).at i = c := fun i => by simp [Sig.at]
theorem at_one (c : String) : ∀ i, ({ req := [c], rest := some c } : Sig).at i = c := fun i => by
  cases i <;> simp [Sig.at]

theorem arithLoop_cases (who : String) : ∀ xs : List V, (∃ f as, arithLoop who xs = .go f as ∧ ∀ v ∈ xs, isInt v = true) ∨ ∃ v ∈ xs, isInt v = false ∧ arithLoop who xs = .argument who "number?" v
  | [] => Or.inl ⟨_, _, rfl, by simp⟩
  | y :: ys => by
    cases hy : isInt y
    · exact Or.inr ⟨y, by simp, hy, by simp [arithLoop, hy]⟩
    · rcases arithLoop_cases who ys with ⟨f, as, e, h⟩ | ⟨v, hm, hv, e⟩
      · exact Or.inl ⟨f, as, by simp [arithLoop, hy, e], by simpa [hy] using h⟩
      · exact Or.inr ⟨v, by simp [hm], hv, by simp [arithLoop, hy, e]⟩

theorem plus_cases (xs : List V) : (∃ f as, plus xs = .go f as ∧ ∀ v ∈ xs, isInt v = true) ∨ ∃ v ∈ xs, isInt v = false ∧ plus xs = .argument "+" "number?" v := by
  rcases xs with _ | ⟨x, _ | ⟨y, _ | ⟨z, zs⟩⟩⟩
  · exact Or.inl ⟨_, _, rfl, by simp⟩
  · cases hx : isInt x <;> simp [plus, hx]
  · cases hx : isInt x <;> cases hy : isInt y <;> simp [plus, hx, hy]
  · cases hx : isInt x
    · exact Or.inr ⟨x, by simp, hx, by simp [plus, hx]⟩
    · cases hy : isInt y
      · exact Or.inr ⟨y, by simp, hy, by simp [plus, hx, hy]⟩
      · rcases arithLoop_cases "+" (z :: zs) with ⟨f, as, e, h⟩ | ⟨v, hm, hv, e⟩
        · exact Or.inl ⟨f, as, by simp [plus, hx, hy, e], by simpa [hx, hy] using h⟩
        · exact Or.inr ⟨v, List.mem_cons_of_mem _ (List.mem_cons_of_mem _ hm), hv, by simp [plus, hx, hy, e]⟩

theorem minus_cases (xs : List V) (hne : xs ≠ []) : (∃ f as, minus xs = .go f as ∧ ∀ v ∈ xs, isInt v = true) ∨ ∃ v ∈ xs, isInt v = false ∧ minus xs = .argument "-" "number?" v := by
  rcases xs with _ | ⟨x, _ | ⟨y, _ | ⟨z, zs⟩⟩⟩
  · exact absurd rfl hne
  · cases hx : isInt x <;> simp [minus, hx]
  · cases hx : isInt x <;> cases hy : isInt y <;> simp [minus, hx, hy]
  · cases hx : isInt x
    · exact Or.inr ⟨x, by simp, hx, by simp [minus, hx]⟩
    · cases hy : isInt y
      · exact Or.inr ⟨y, by simp, hy, by simp [minus, hx, hy]⟩
      · rcases arithLoop_cases "-" (z :: zs) with ⟨f, as, e, h⟩ | ⟨v, hm, hv, e⟩
        · exact Or.inl ⟨f, as, by simp [minus, hx, hy, e], by simpa [hx, hy] using h⟩
        · exact Or.inr ⟨v, List.mem_cons_of_mem _ (List.mem_cons_of_mem _ hm), hv, by simp [minus, hx, hy, e]⟩

theorem charsThen_cases (who : String) (k : Out) : ∀ xs : List V, (charsThen who k xs = k ∧ ∀ v ∈ xs, isChr v = true) ∨ ∃ v ∈ xs, isChr v = false ∧ charsThen who k xs = .argument who "char?" v
  | [] => Or.inl ⟨rfl, by simp⟩
  | y :: ys => by
    cases hy : isChr y
    · exact Or.inr ⟨y, by simp, hy, by simp [charsThen, hy]⟩
    · rcases charsThen_cases who k ys with ⟨e, h⟩ | ⟨v, hm, hv, e⟩
      · exact Or.inl ⟨by simp [charsThen, hy, e], by simpa [hy] using h⟩
      · exact Or.inr ⟨v, by simp [hm], hv, by simp [charsThen, hy, e]⟩

theorem appendLoop_cases : ∀ xs : List V, (∃ f as, appendLoop xs = .go f as ∧ ∀ v ∈ xs, isList v = true) ∨ ∃ v ∈ xs, isList v = false ∧ appendLoop xs = .argument "append" "list?" v
  | [] => Or.inl ⟨_, _, rfl, by simp⟩
  | y :: ys => by
    cases hy : isList y
    · exact Or.inr ⟨y, by simp, hy, by simp [appendLoop, hy]⟩
    · rcases appendLoop_cases ys with ⟨f, as, e, h⟩ | ⟨v, hm, hv, e⟩
      · exact Or.inl ⟨f, as, by simp [appendLoop, hy, e], by simpa [hy] using h⟩
      · exact Or.inr ⟨v, by simp [hm], hv, by simp [appendLoop, hy, e]⟩

theorem append_cases (xs : List V) : (∃ f as, append xs = .go f as ∧ ∀ v ∈ xs, isList v = true) ∨ ∃ v ∈ xs, isList v = false ∧ append xs = .argument "append" "list?" v := by
  rcases xs with _ | ⟨x, _ | ⟨y, _ | ⟨z, zs⟩⟩⟩
  · exact Or.inl ⟨_, _, rfl, by simp⟩
  · cases hx : isList x <;> simp [append, hx]
  · cases hx : isList x <;> cases hy : isList y <;> simp [append, hx, hy]
  · rcases appendLoop_cases (x :: y :: z :: zs).reverse with ⟨f, as, e, h⟩ | ⟨v, hm, hv, e⟩
    · exact Or.inl ⟨f, as, e, fun v hv => h v (List.mem_reverse.2 hv)⟩
    · exact Or.inr ⟨v, List.mem_reverse.1 hm, hv, e⟩

/-- The outcomes of `check-args!` of `map`. -/
theorem listsLoop_cases (who : String) (k : Out) : ∀ (xs : List V) (p : Option Nat),
    (listsLoop who k p xs = k ∧ ∀ v ∈ xs, isList v = true ∧ ∀ n, p = some n ∨ (∃ w ∈ xs, n = (elems w).length) → (elems v).length = n)
    ∨ (∃ v ∈ xs, isList v = false ∧ listsLoop who k p xs = .argument who "list?" v)
    ∨ (∃ m, listsLoop who k p xs = .error who m ∧ ∃ v ∈ xs, isList v = true ∧ ((∃ n, p = some n ∧ (elems v).length ≠ n) ∨ ∃ w ∈ xs, isList w = true ∧ (elems v).length ≠ (elems w).length))
  | [], _ => Or.inl ⟨rfl, by simp⟩
  | x :: xs, p => by
    cases hx : isList x
    · exact Or.inr (Or.inl ⟨x, by simp, hx, by simp [listsLoop, hx]⟩)
    · by_cases hp : p.all (· = (elems x).length) = true
      · have e : listsLoop who k p (x :: xs) = listsLoop who k (some (elems x).length) xs := by simp only [listsLoop, hx, hp, if_true]
        rcases listsLoop_cases who k xs (some (elems x).length) with ⟨e', h⟩ | ⟨v, hm, hv, e'⟩ | ⟨m, e', v, hm, hl, h⟩
        · refine Or.inl ⟨e.trans e', ?_⟩
          have hall : ∀ v ∈ x :: xs, isList v = true ∧ (elems v).length = (elems x).length := by
            intro v hv
            rcases List.mem_cons.1 hv with rfl | hv
            · exact ⟨hx, rfl⟩
            · exact ⟨(h v hv).1, (h v hv).2 _ (Or.inl rfl)⟩
          intro v hv
          refine ⟨(hall v hv).1, fun n hn => ?_⟩
          rcases hn with rfl | ⟨w, hw, rfl⟩
          · rw [(hall v hv).2]; exact (by simpa using hp : n = _).symm
          · rw [(hall v hv).2, (hall w hw).2]
        · exact Or.inr (Or.inl ⟨v, by simp [hm], hv, e.trans e'⟩)
        · refine Or.inr (Or.inr ⟨m, e.trans e', v, by simp [hm], hl, Or.inr ?_⟩)
          rcases h with ⟨n, hn, hne⟩ | ⟨w, hw, hlw, hne⟩
          · exact ⟨x, by simp, hx, by cases hn; exact hne⟩
          · exact ⟨w, by simp [hw], hlw, hne⟩
      · refine Or.inr (Or.inr ⟨"lists do not have same size", by simp only [listsLoop, hx, if_true]; rw [if_neg hp], x, by simp, hx, Or.inl ?_⟩)
        cases p with
        | none => exact absurd rfl hp
        | some n => exact ⟨n, rfl, fun h => hp (by simp [h])⟩

theorem mapper_reports (name : String) : Reports ⟨name, mapper name, { req := ["procedure?", "list?"], rest := some "list?", same := true }⟩ := by
  intro args h
  rcases args with _ | ⟨f, _ | ⟨x, xs⟩⟩
  · simp [Sig.accepts] at h
  · simp [Sig.accepts] at h
  · have hat : ∀ i, 1 ≤ i → ({ req := ["procedure?", "list?"], rest := some "list?", same := true } : Sig).at i = "list?" := by
      intro i hi
      rcases i with _ | _ | i
      · omega
      · rfl
      · simp [Sig.at]
    have hat0 : ({ req := ["procedure?", "list?"], rest := some "list?", same := true } : Sig).at 0 = "procedure?" := rfl
    cases hf : isProc f
    · simp [mapper, hf, Accurate, Complete, Sig.blames, hat0]
    · have hfl : isList f = false := by cases f <;> simp_all [isProc, isList]
      rcases listsLoop_cases name (.go "f" (f :: x :: xs)) (x :: xs) none with ⟨e, hl⟩ | ⟨v, hm, hv, e⟩ | ⟨m, e, v, hm, hl, hne⟩
      · simp only [mapper, hf, if_true, e]
        refine ⟨rfl, ?_⟩
        simp only [Complete, Sig.legal, hat0, sat_10, hf, Bool.true_and, Bool.and_eq_true]
        refine ⟨?_, ?_⟩
        · have := legal_all (s := { req := ["procedure?", "list?"], rest := some "list?", same := true }) (x :: xs) 1 hat
          simp only [Sig.legal, Nat.zero_add] at this ⊢
          rw [← Bool.and_eq_true, this]
          exact List.all_eq_true.2 fun v hv => (hl v hv).1
        · simp only [Sig.inside, Bool.true_and, Bool.not_eq_true', unequal, List.any_eq_false]
          intro a ha
          simp only [Bool.not_eq_true, List.any_eq_false]
          intro b hb
          rcases List.mem_cons.1 ha with rfl | ha
          · simp [hfl]
          · rcases List.mem_cons.1 hb with rfl | hb
            · simp [hfl]
            · simp [(hl a ha).2 _ (Or.inr ⟨b, hb, rfl⟩)]
      · simp only [mapper, hf, if_true, e]
        refine ⟨?_, rfl⟩
        have := blames_all (s := { req := ["procedure?", "list?"], rest := some "list?", same := true }) (v := v) (x :: xs) 1 hat hm hv
        simp only [Accurate, decide_true, Bool.true_and, ctc_11, sat_11, hv, Bool.not_false, Bool.and_true]
        rw [Sig.blames]
        simp only [Nat.zero_add, this, Bool.or_true]
      · simp only [mapper, hf, if_true, e]
        refine ⟨?_, rfl⟩
        simp only [Accurate, decide_true, Bool.true_and, unequal]
        rcases hne with ⟨n, hn, _⟩ | ⟨w, hw, hlw, hne⟩
        · cases hn
        · exact List.any_eq_true.2 ⟨v, List.mem_cons_of_mem _ hm, List.any_eq_true.2 ⟨w, List.mem_cons_of_mem _ hw, by simp [hl, hlw, hne]⟩⟩

theorem «r:car» : Reports ⟨"car", fix1 car, { req := ["pair?"] }⟩ := by report [car]
theorem «r:cdr» : Reports ⟨"cdr", fix1 cdr, { req := ["pair?"] }⟩ := by report [cdr]
theorem «r:caar» : Reports ⟨"caar", fix1 caar, { req := ["(pairof pair? any)"] }⟩ := by report [caar]
theorem «r:cadr» : Reports ⟨"cadr", fix1 cadr, { req := ["(pairof any pair?)"] }⟩ := by report [cadr]
theorem «r:cdar» : Reports ⟨"cdar", fix1 cdar, { req := ["(pairof pair? any)"] }⟩ := by report [cdar]
theorem «r:cddr» : Reports ⟨"cddr", fix1 cddr, { req := ["(pairof any pair?)"] }⟩ := by report [cddr]
theorem «r:caaar» : Reports ⟨"caaar", fix1 caaar, { req := ["(pairof (pairof pair? any) any)"] }⟩ := by report [caaar]
theorem «r:caadr» : Reports ⟨"caadr", fix1 caadr, { req := ["(pairof any (pairof pair? any))"] }⟩ := by report [caadr]
theorem «r:cadar» : Reports ⟨"cadar", fix1 cadar, { req := ["(pairof (pairof any pair?) any)"] }⟩ := by report [cadar]
theorem «r:cdaar» : Reports ⟨"cdaar", fix1 cdaar, { req := ["(pairof (pairof pair? any) any)"] }⟩ := by report [cdaar]
theorem «r:cdadr» : Reports ⟨"cdadr", fix1 cdadr, { req := ["(pairof any (pairof pair? any))"] }⟩ := by report [cdadr]
theorem «r:cddar» : Reports ⟨"cddar", fix1 cddar, { req := ["(pairof (pairof any pair?) any)"] }⟩ := by report [cddar]
theorem «r:caaaar» : Reports ⟨"caaaar", fix1 caaaar, { req := ["(pairof (pairof (pairof pair? any) any) any)"] }⟩ := by report [caaaar]
theorem «r:caaadr» : Reports ⟨"caaadr", fix1 caaadr, { req := ["(pairof any (pairof (pairof pair? any) any))"] }⟩ := by report [caaadr]
theorem «r:caadar» : Reports ⟨"caadar", fix1 caadar, { req := ["(pairof (pairof any (pairof pair? any)) any)"] }⟩ := by report [caadar]
theorem «r:cadaar» : Reports ⟨"cadaar", fix1 cadaar, { req := ["(pairof (pairof (pairof any pair?) any) any)"] }⟩ := by report [cadaar]
theorem «r:cadadr» : Reports ⟨"cadadr", fix1 cadadr, { req := ["(pairof any (pairof (pairof any pair?) any))"] }⟩ := by report [cadadr]
theorem «r:caddar» : Reports ⟨"caddar", fix1 caddar, { req := ["(pairof (pairof any (pairof any pair?)) any)"] }⟩ := by report [caddar]
theorem «r:cdaaar» : Reports ⟨"cdaaar", fix1 cdaaar, { req := ["(pairof (pairof (pairof pair? any) any) any)"] }⟩ := by report [cdaaar]
theorem «r:cdaadr» : Reports ⟨"cdaadr", fix1 cdaadr, { req := ["(pairof any (pairof (pairof pair? any) any))"] }⟩ := by report [cdaadr]
theorem «r:cdadar» : Reports ⟨"cdadar", fix1 cdadar, { req := ["(pairof (pairof any (pairof pair? any)) any)"] }⟩ := by report [cdadar]
theorem «r:cddaar» : Reports ⟨"cddaar", fix1 cddaar, { req := ["(pairof (pairof (pairof any pair?) any) any)"] }⟩ := by report [cddaar]
theorem «r:cddadr» : Reports ⟨"cddadr", fix1 cddadr, { req := ["(pairof any (pairof (pairof any pair?) any))"] }⟩ := by report [cddadr]
theorem «r:cdddar» : Reports ⟨"cdddar", fix1 cdddar, { req := ["(pairof (pairof any (pairof any pair?)) any)"] }⟩ := by report [cdddar]
theorem «r:set-car!» : Reports ⟨"set-car!", fix2 «set-car!», { req := ["pair?", "any"] }⟩ := by report [«set-car!»]
theorem «r:set-cdr!» : Reports ⟨"set-cdr!", fix2 «set-cdr!», { req := ["pair?", "any"] }⟩ := by report [«set-cdr!»]
theorem «r:add1» : Reports ⟨"add1", fix1 add1, { req := ["number?"] }⟩ := by report [add1]
theorem «r:sub1» : Reports ⟨"sub1", fix1 sub1, { req := ["number?"] }⟩ := by report [sub1]
theorem «r:remainder» : Reports ⟨"remainder", fix2 remainder, { req := ["number?", "number?"] }⟩ := by report [remainder]
theorem «r:modulo» : Reports ⟨"modulo", fix2 modulo, { req := ["number?", "number?"] }⟩ := by report [modulo]
theorem «r:procedure-arity» : Reports ⟨"procedure-arity", fix1 «procedure-arity», { req := ["procedure?"] }⟩ := by report [«procedure-arity»]
theorem «r:procedure-name» : Reports ⟨"procedure-name", fix1 «procedure-name», { req := ["procedure?"] }⟩ := by report [«procedure-name»]
theorem «r:procedure-rename» : Reports ⟨"procedure-rename", fix2 «procedure-rename», { req := ["procedure?", "symbol?"] }⟩ := by report [«procedure-rename»]
theorem «r:char->integer» : Reports ⟨"char->integer", fix1 «char->integer», { req := ["char?"] }⟩ := by report [«char->integer»]
theorem «r:integer->char» : Reports ⟨"integer->char", fix1 «integer->char», { req := ["integer?"] }⟩ := by report [«integer->char»]
theorem «r:string-length» : Reports ⟨"string-length", fix1 «string-length», { req := ["string?"] }⟩ := by report [«string-length»]
theorem «r:number->string» : Reports ⟨"number->string", fix1 «number->string», { req := ["number?"] }⟩ := by report [«number->string»]
theorem «r:string->number» : Reports ⟨"string->number", fix1 «string->number», { req := ["string?"] }⟩ := by report [«string->number»]
theorem «r:symbol->string» : Reports ⟨"symbol->string", fix1 «symbol->string», { req := ["symbol?"] }⟩ := by report [«symbol->string»]
theorem «r:string->symbol» : Reports ⟨"string->symbol", fix1 «string->symbol», { req := ["string?"] }⟩ := by report [«string->symbol»]
theorem «r:string->list» : Reports ⟨"string->list", fix1 «string->list», { req := ["string?"] }⟩ := by report [«string->list»]
theorem «r:length» : Reports ⟨"length", fix1 length, { req := ["list?"] }⟩ := by report [length]
theorem «r:reverse» : Reports ⟨"reverse", fix1 reverse, { req := ["list?"] }⟩ := by report [reverse]
theorem «r:enumerate» : Reports ⟨"enumerate", fix1 enumerate, { req := ["list?"] }⟩ := by report [enumerate]
theorem «r:vector-length» : Reports ⟨"vector-length", fix1 «vector-length», { req := ["vector?"] }⟩ := by report [«vector-length»]
theorem «r:list->vector» : Reports ⟨"list->vector", fix1 «list->vector», { req := ["list?"] }⟩ := by report [«list->vector»]
theorem «r:vector->list» : Reports ⟨"vector->list", fix1 «vector->list», { req := ["vector?"] }⟩ := by report [«vector->list»]
theorem «r:unbox» : Reports ⟨"unbox", fix1 unbox, { req := ["box?"] }⟩ := by report [unbox]
theorem «r:set-box!» : Reports ⟨"set-box!", fix2 «set-box!», { req := ["box?", "any"] }⟩ := by report [«set-box!»]
theorem «r:open-input-file» : Reports ⟨"open-input-file", fix1 «open-input-file», { req := ["string?"] }⟩ := by report [«open-input-file»]
theorem «r:open-output-file» : Reports ⟨"open-output-file", fix1 «open-output-file», { req := ["string?"] }⟩ := by report [«open-output-file»]
theorem «r:record-rtd» : Reports ⟨"record-rtd", fix1 «record-rtd», { req := ["record?"] }⟩ := by report [«record-rtd»]
theorem «r:record-constructor» : Reports ⟨"record-constructor", fix1 «record-constructor», { req := ["record-type-descriptor?"] }⟩ := by report [«record-constructor»]
theorem «r:record-predicate» : Reports ⟨"record-predicate", fix1 «record-predicate», { req := ["record-type-descriptor?"] }⟩ := by report [«record-predicate»]
theorem «r:hashtable-copy» : Reports ⟨"hashtable-copy", fix1 «hashtable-copy», { req := ["hashtable?"] }⟩ := by report [«hashtable-copy»]
theorem «r:hashtable-entries» : Reports ⟨"hashtable-entries", fix1 «hashtable-entries», { req := ["hashtable?"] }⟩ := by report [«hashtable-entries»]
theorem «r:hashtable-set!» : Reports ⟨"hashtable-set!", fix3 «hashtable-set!», { req := ["hashtable?", "any", "any"] }⟩ := by report [«hashtable-set!»]
theorem «r:hashtable-clear!» : Reports ⟨"hashtable-clear!", fix1 «hashtable-clear!», { req := ["hashtable?"] }⟩ := by report [«hashtable-clear!»]
theorem «r:record-equal-procedure» : Reports ⟨"record-equal-procedure", fix2 «record-equal-procedure», { req := ["$record-value?", "$record-value?"] }⟩ := by report [«record-equal-procedure»]
theorem «r:flush-output-port» : Reports ⟨"flush-output-port", fix1 «flush-output-port», { req := ["output-port?"] }⟩ := by report [«flush-output-port»]
theorem «r:put-datum» : Reports ⟨"put-datum", fix2 «put-datum», { req := ["output-port?", "any"] }⟩ := by report [«put-datum»]
theorem «r:fasl-read» : Reports ⟨"fasl-read", fix1 «fasl-read», { req := ["input-port?"] }⟩ := by report [«fasl-read»]
theorem «r:fasl-write» : Reports ⟨"fasl-write", fix2 «fasl-write», { req := ["any", "output-port?"] }⟩ := by report [«fasl-write»]
theorem «r:syntax-e» : Reports ⟨"syntax-e", fix1 «syntax-e», { req := ["syntax?"] }⟩ := by report [«syntax-e»]
theorem «r:syntax-loc» : Reports ⟨"syntax-loc", fix1 «syntax-loc», { req := ["syntax?"] }⟩ := by report [«syntax-loc»]
theorem «r:syntax->datum» : Reports ⟨"syntax->datum", fix1 «syntax->datum», { req := ["syntax?"] }⟩ := by report [«syntax->datum»]
theorem «r:syntax->list» : Reports ⟨"syntax->list", fix1 «syntax->list», { req := ["syntax?"] }⟩ := by report [«syntax->list»]
theorem «r:make-pattern-variable» : Reports ⟨"make-pattern-variable", fix2 «make-pattern-variable», { req := ["any", "non-negative-integer?"] }⟩ := by report [«make-pattern-variable»]
theorem «r:environment-symbols» : Reports ⟨"environment-symbols", fix1 «environment-symbols», { req := ["environment?"] }⟩ := by report [«environment-symbols»]
theorem «r:environment-set!» : Reports ⟨"environment-set!", fix3 «environment-set!», { req := ["environment?", "symbol?", "any"] }⟩ := by report [«environment-set!»]
theorem «r:load» : Reports ⟨"load", fix1 load, { req := ["string?"] }⟩ := by report [load]
theorem «r:read» : Reports ⟨"read", read, { req := [], opt := ["input-port?"] }⟩ := by report [read]
theorem «r:read-char» : Reports ⟨"read-char", «read-char», { req := [], opt := ["input-port?"] }⟩ := by report [«read-char»]
theorem «r:peek-char» : Reports ⟨"peek-char", «peek-char», { req := [], opt := ["input-port?"] }⟩ := by report [«peek-char»]
theorem «r:char-ready?» : Reports ⟨"char-ready?", «char-ready?», { req := [], opt := ["input-port?"] }⟩ := by report [«char-ready?»]
theorem «r:make-vector» : Reports ⟨"make-vector", «make-vector», { req := ["non-negative-integer?"], opt := ["any"] }⟩ := by report [«make-vector»]
theorem «r:write-char» : Reports ⟨"write-char", «write-char», { req := ["char?"], opt := ["output-port?"] }⟩ := by report [«write-char»]
theorem «r:write» : Reports ⟨"write", write, { req := ["any"], opt := ["output-port?"] }⟩ := by report [write]
theorem «r:display» : Reports ⟨"display", display, { req := ["any"], opt := ["output-port?"] }⟩ := by report [display]
theorem «r:current-environment» : Reports ⟨"current-environment", «current-environment», { req := [], opt := ["environment?"] }⟩ := by report [«current-environment»]
theorem «r:current-directory» : Reports ⟨"current-directory", «current-directory», { req := [], opt := ["string?"] }⟩ := by report [«current-directory»]
theorem «r:current-error-handler» : Reports ⟨"current-error-handler", «current-error-handler», { req := [], opt := ["procedure?"] }⟩ := by report [«current-error-handler»]
theorem «r:exit» : Reports ⟨"exit", exit, { req := [], opt := ["an integer between 0 and 255"] }⟩ := by report [exit]
theorem «r:default-record-equal-procedure» : Reports ⟨"default-record-equal-procedure", «default-record-equal-procedure», { req := [], opt := ["procedure?"] }⟩ := by report [«default-record-equal-procedure»]
theorem «r:default-record-hash-procedure» : Reports ⟨"default-record-hash-procedure", «default-record-hash-procedure», { req := [], opt := ["procedure?"] }⟩ := by report [«default-record-hash-procedure»]
theorem «r:hashtable-ref» : Reports ⟨"hashtable-ref", «hashtable-ref», { req := ["hashtable?", "any"], opt := ["any"] }⟩ := by report [«hashtable-ref»]
theorem «r:hashtable-update!» : Reports ⟨"hashtable-update!", «hashtable-update!», { req := ["hashtable?", "any", "procedure?"], opt := ["any"] }⟩ := by report [«hashtable-update!»]
theorem «r:+» : Reports ⟨"+", plus, { req := [], rest := some "number?" }⟩ := by
  intro args ha
  rcases plus_cases args with ⟨f, as, e, h⟩ | ⟨v, hm, hv, e⟩
  · exact ⟨by simp only [e]; rfl, by simp only [e]; exact complete_uniform (at_rest "number?") rfl h⟩
  · exact ⟨by simp only [e]; exact accurate_uniform (c := "number?") (at_rest _) rfl hm hv, by simp only [e]; rfl⟩

theorem «r:-» : Reports ⟨"-", minus, { req := ["number?"], rest := some "number?" }⟩ := by
  intro args ha
  have hne : args ≠ [] := by rintro rfl; simp [Sig.accepts] at ha
  rcases minus_cases args hne with ⟨f, as, e, h⟩ | ⟨v, hm, hv, e⟩
  · exact ⟨by simp only [e]; rfl, by simp only [e]; exact complete_uniform (at_one "number?") rfl h⟩
  · exact ⟨by simp only [e]; exact accurate_uniform (c := "number?") (at_one _) rfl hm hv, by simp only [e]; rfl⟩

theorem «r:string» : Reports ⟨"string", string, { req := [], rest := some "char?" }⟩ := by
  intro args ha
  rcases charsThen_cases "string" (.go "$list->string" args) args with ⟨e, h⟩ | ⟨v, hm, hv, e⟩
  · exact ⟨by simp only [string, e]; rfl, by simp only [string, e]; exact complete_uniform (at_rest "char?") rfl h⟩
  · exact ⟨by simp only [string, e]; exact accurate_uniform (c := "char?") (at_rest _) rfl hm hv, by simp only [string, e]; rfl⟩

theorem «r:string-ref» : Reports ⟨"string-ref", fix2 «string-ref», { req := ["string?", "non-negative-integer?"], bound := some (0, 1) }⟩ := by
  ranged [«string-ref»]

theorem «r:string-set!» : Reports ⟨"string-set!", fix3 «string-set!», { req := ["string?", "non-negative-integer?", "char?"], bound := some (0, 1) }⟩ := by
  ranged [«string-set!»]

theorem «r:append» : Reports ⟨"append", append, { req := [], rest := some "list?" }⟩ := by
  intro args ha
  rcases append_cases args with ⟨f, as, e, h⟩ | ⟨v, hm, hv, e⟩
  · exact ⟨by simp only [e]; rfl, by simp only [e]; exact complete_uniform (at_rest "list?") rfl h⟩
  · exact ⟨by simp only [e]; exact accurate_uniform (c := "list?") (at_rest _) rfl hm hv, by simp only [e]; rfl⟩

theorem «r:for-each» : Reports ⟨"for-each", mapper "for-each", { req := ["procedure?", "list?"], rest := some "list?", same := true }⟩ := mapper_reports _
theorem «r:map» : Reports ⟨"map", mapper "map", { req := ["procedure?", "list?"], rest := some "list?", same := true }⟩ := mapper_reports _
theorem «r:andmap» : Reports ⟨"andmap", mapper "andmap", { req := ["procedure?", "list?"], rest := some "list?", same := true }⟩ := mapper_reports _
theorem «r:ormap» : Reports ⟨"ormap", mapper "ormap", { req := ["procedure?", "list?"], rest := some "list?", same := true }⟩ := mapper_reports _
theorem «r:get-output-string» : Reports ⟨"get-output-string", fix1 «get-output-string», { req := ["(and output-port? string-port?)"] }⟩ := by report [«get-output-string»]
theorem «r:record-accessor» : Reports ⟨"record-accessor", fix2 «record-accessor», { req := ["record-type-descriptor?", "non-negative-integer?"], bound := some (0, 1) }⟩ := by
  ranged [«record-accessor»]

theorem «r:record-mutator» : Reports ⟨"record-mutator", fix2 «record-mutator», { req := ["record-type-descriptor?", "non-negative-integer?"], bound := some (0, 1) }⟩ := by
  ranged [«record-mutator»]


/-- Proves that a procedure does not go on with wrong arguments. -/
macro "guarded" "[" ts:Lean.Parser.Tactic.simpLemma,* "]" : tactic => `(tactic| (
  intro args h
  rcases args with _ | ⟨a, _ | ⟨b, _ | ⟨c, _ | ⟨d, _ | ⟨e, t⟩⟩⟩⟩⟩
  all_goals first
    | (exfalso; simp [Sig.accepts] at h; done)
    | (exfalso; simp [Sig.accepts] at h; omega)
    | (simp only [fix1, fix2, fix3, raiseRange, $ts,*]
       (try dsimp only) <;> (try split_ifs) <;> (try dsimp only) <;> (try split_ifs) <;>
         simp_all [Complete, Sig.legal, Sig.at, Sig.inside])))

/-- Specification: the procedure does not go on with wrong arguments. -/
def Guards (r : Row) : Prop := ∀ args, r.sig.accepts args.length = true → Complete r args (r.f args) = true

theorem raiseRange_complete {r : Row} {args : List V} {w : String} {v d : V} {l u i : Int} : Complete r args (raiseRange w v d l u i) = true := by
  cases d <;> rfl

theorem nat_num {v : V} (h : isNat v = true) : 0 ≤ num v := by
  obtain ⟨n, hn, rfl⟩ := isNat_iff.1 h; exact hn

theorem times_guard {args : List V} {f : String} {as : List V} (h : times args = .go f as) : ∀ v ∈ args, isInt v = true := by
  rcases args with _ | ⟨x, _ | ⟨y, _ | ⟨z, zs⟩⟩⟩
  · simp
  · cases hx : isInt x <;> simp [times, hx] at h ⊢
  · cases hx : isInt x <;> cases hy : isInt y <;> simp [times, hx, hy] at h ⊢
  · cases hx : isInt x
    · simp [times, hx] at h
    · cases hy : isInt y
      · simp [times, hx, hy] at h
      · rcases arithLoop_cases "*" (z :: zs) with ⟨f, as, e, h⟩ | ⟨v, hm, hv, e⟩
        · simpa [hx, hy] using h
        · simp [times, hx, hy, e] at h

theorem divideLoop_guard {f : String} {as : List V} : ∀ {args : List V}, divideLoop args = .go f as → ∀ v ∈ args, isInt v = true
  | [], _ => by simp
  | y :: ys, h => by
    cases hy : isInt y
    · simp [divideLoop, hy] at h
    · cases hz : isZero y
      · simp [divideLoop, hy, hz] at h
        simpa [hy] using divideLoop_guard h
      · simp [divideLoop, hy, hz] at h

theorem divide_guard {args : List V} {f : String} {as : List V} (h : divide args = .go f as) : ∀ v ∈ args, isInt v = true := by
  rcases args with _ | ⟨x, _ | ⟨y, _ | ⟨z, zs⟩⟩⟩
  · simp
  · cases hx : isInt x <;> simp [divide, hx] at h ⊢
  · cases hx : isInt x <;> cases hy : isInt y <;> simp [divide, hx, hy] at h ⊢
  · cases hx : isInt x
    · simp [divide, hx] at h
    · cases hy : isInt y
      · simp [divide, hx, hy] at h
      · cases hz : isZero y
        · simp [divide, hx, hy, hz] at h
          have := divideLoop_guard h
          simpa [hx, hy] using this
        · simp [divide, hx, hy, hz] at h

theorem guard_uniform {r : Row} {c : String} (hs : ∀ i, r.sig.at i = c) (hb : ∀ args, r.sig.inside args = true) (h : ∀ args f as, r.f args = .go f as → ∀ v ∈ args, sat c v = true) : Guards r := by
  intro args _
  cases e : r.f args with
  | go f as => exact complete_uniform hs (hb args) (h args f as e)
  | _ => rfl

theorem charsThen_go {who : String} {k : Out} {xs : List V} {f : String} {as : List V} (h : charsThen who k xs = .go f as) : k = .go f as := by
  rcases charsThen_cases who k xs with ⟨e, _⟩ | ⟨v, _, _, e⟩
  · rw [← e, h]
  · rw [e] at h; cases h

theorem legal_any {s : Sig} : ∀ (args : List V) (k : Nat), (∀ i, k ≤ i → s.at i = "any") → s.legal k args = true := fun args k h => by
  rw [legal_all args k h]; exact List.all_eq_true.2 fun _ _ => rfl

theorem «g:caddr» : Guards ⟨"caddr", fix1 caddr, { req := ["(pairof any (pairof any pair?))"] }⟩ := by guarded [caddr]

theorem «g:cdddr» : Guards ⟨"cdddr", fix1 cdddr, { req := ["(pairof any (pairof any pair?))"] }⟩ := by guarded [cdddr]

theorem «g:caaddr» : Guards ⟨"caaddr", fix1 caaddr, { req := ["(pairof any (pairof any (pairof pair? any)))"] }⟩ := by guarded [caaddr]

theorem «g:cadddr» : Guards ⟨"cadddr", fix1 cadddr, { req := ["(pairof any (pairof any (pairof any pair?)))"] }⟩ := by guarded [cadddr]

theorem «g:cdaddr» : Guards ⟨"cdaddr", fix1 cdaddr, { req := ["(pairof any (pairof any (pairof pair? any)))"] }⟩ := by guarded [cdaddr]

theorem «g:cddddr» : Guards ⟨"cddddr", fix1 cddddr, { req := ["(pairof any (pairof any (pairof any pair?)))"] }⟩ := by guarded [cddddr]

theorem «g:make-list» : Guards ⟨"make-list", fix2 «make-list», { req := ["non-negative-integer?", "any"] }⟩ := by guarded [«make-list»]

theorem «g:iota» : Guards ⟨"iota", fix1 iota, { req := ["non-negative-integer?"] }⟩ := by guarded [iota]

theorem «g:vector-fill!» : Guards ⟨"vector-fill!", fix2 «vector-fill!», { req := ["vector?", "any"] }⟩ := by guarded [«vector-fill!»]

theorem «g:close-input-port» : Guards ⟨"close-input-port", fix1 «close-input-port», { req := ["input-port?"] }⟩ := by guarded [«close-input-port»]

theorem «g:close-output-port» : Guards ⟨"close-output-port", fix1 «close-output-port», { req := ["output-port?"] }⟩ := by guarded [«close-output-port»]

theorem «g:record-type-name» : Guards ⟨"record-type-name", fix1 «record-type-name», { req := ["record-type-descriptor?"] }⟩ := by guarded [«record-type-name»]

theorem «g:record-type-parent» : Guards ⟨"record-type-parent", fix1 «record-type-parent», { req := ["record-type-descriptor?"] }⟩ := by guarded [«record-type-parent»]

theorem «g:record-type-uid» : Guards ⟨"record-type-uid", fix1 «record-type-uid», { req := ["record-type-descriptor?"] }⟩ := by guarded [«record-type-uid»]

theorem «g:record-type-sealed?» : Guards ⟨"record-type-sealed?", fix1 «record-type-sealed?», { req := ["record-type-descriptor?"] }⟩ := by guarded [«record-type-sealed?»]

theorem «g:record-type-opaque?» : Guards ⟨"record-type-opaque?", fix1 «record-type-opaque?», { req := ["record-type-descriptor?"] }⟩ := by guarded [«record-type-opaque?»]

theorem «g:record-type-field-names» : Guards ⟨"record-type-field-names", fix1 «record-type-field-names», { req := ["record-type-descriptor?"] }⟩ := by guarded [«record-type-field-names»]

theorem «g:hashtable-size» : Guards ⟨"hashtable-size", fix1 «hashtable-size», { req := ["hashtable?"] }⟩ := by guarded [«hashtable-size»]

theorem «g:hashtable-keys» : Guards ⟨"hashtable-keys", fix1 «hashtable-keys», { req := ["hashtable?"] }⟩ := by guarded [«hashtable-keys»]

theorem «g:hashtable-vals» : Guards ⟨"hashtable-vals", fix1 «hashtable-vals», { req := ["hashtable?"] }⟩ := by guarded [«hashtable-vals»]

theorem «g:hashtable-contains?» : Guards ⟨"hashtable-contains?", fix2 «hashtable-contains?», { req := ["hashtable?", "any"] }⟩ := by guarded [«hashtable-contains?»]

theorem «g:hashtable-delete!» : Guards ⟨"hashtable-delete!", fix2 «hashtable-delete!», { req := ["hashtable?", "any"] }⟩ := by guarded [«hashtable-delete!»]

theorem «g:record-hash-procedure» : Guards ⟨"record-hash-procedure", fix1 «record-hash-procedure», { req := ["$record-value?"] }⟩ := by guarded [«record-hash-procedure»]

theorem «g:put-char» : Guards ⟨"put-char", fix2 «put-char», { req := ["output-port?", "char?"] }⟩ := by guarded [«put-char»]

theorem «g:newline» : Guards ⟨"newline", newline, { req := [], opt := ["output-port?"] }⟩ := by guarded [newline]

theorem «g:*» : Guards ⟨"*", times, { req := [], rest := some "number?" }⟩ := guard_uniform (at_rest "number?") (fun _ => rfl) fun _ _ _ h => times_guard h

theorem «g:/» : Guards ⟨"/", divide, { req := ["number?"], rest := some "number?" }⟩ := guard_uniform (at_one "number?") (fun _ => rfl) fun _ _ _ h => divide_guard h

theorem «g:zero?» : Guards ⟨"zero?", fix1 «zero?», { req := ["number?"] }⟩ := by guarded [«zero?», compare]

theorem «g:list->string» : Guards ⟨"list->string", fix1 «list->string», { req := ["list?"] }⟩ := by
  intro args h
  rcases args with _ | ⟨a, _ | ⟨b, t⟩⟩
  · simp [Sig.accepts] at h
  · simp only [fix1, «list->string»]
    split_ifs with hl
    · cases e : charsThen "list->string" (.go "$list->string" [a]) (elems a) with
      | go f as => simp [Complete, Sig.legal, Sig.at, Sig.inside, hl]
      | _ => rfl
    · rfl
  · simp [Sig.accepts] at h

theorem «g:make-string» : Guards ⟨"make-string", «make-string», { req := ["non-negative-integer?"], opt := ["char?"] }⟩ := by guarded [«make-string», makeStringCheck]

theorem «g:string-append» : Guards ⟨"string-append", «string-append», { req := [], rest := some "string?" }⟩ := guard_uniform (at_rest "string?") (fun _ => rfl) fun args _ _ h => by
  simp only [«string-append»] at h
  split_ifs at h with hs
  exact List.all_eq_true.1 hs

theorem «g:vector-ref» : Guards ⟨"vector-ref", fix2 «vector-ref», { req := ["vector?", "non-negative-integer?"], bound := some (0, 1) }⟩ := by
  intro args h
  rcases args with _ | ⟨a, _ | ⟨b, _ | ⟨c, _ | ⟨d, t⟩⟩⟩⟩
  all_goals first
    | (exfalso; simp [Sig.accepts] at h; done)
    | (exfalso; simp [Sig.accepts] at h; omega)
    | (cases hb : isNat b
       · simp only [fix2, fix3, «vector-ref», hb]; split_ifs <;> simp_all [Complete]
       · have hn := nat_num hb
         simp only [fix2, fix3, «vector-ref», hb, if_true]
         split_ifs <;> first | exact raiseRange_complete | simp_all [Complete, Sig.legal, Sig.at, Sig.inside])

theorem «g:vector-set!» : Guards ⟨"vector-set!", fix3 «vector-set!», { req := ["vector?", "non-negative-integer?", "any"], bound := some (0, 1) }⟩ := by
  intro args h
  rcases args with _ | ⟨a, _ | ⟨b, _ | ⟨c, _ | ⟨d, t⟩⟩⟩⟩
  all_goals first
    | (exfalso; simp [Sig.accepts] at h; done)
    | (exfalso; simp [Sig.accepts] at h; omega)
    | (cases hb : isNat b
       · simp only [fix2, fix3, «vector-set!», hb]; split_ifs <;> simp_all [Complete]
       · have hn := nat_num hb
         simp only [fix2, fix3, «vector-set!», hb, if_true]
         split_ifs <;> first | exact raiseRange_complete | simp_all [Complete, Sig.legal, Sig.at, Sig.inside])

theorem «g:open-input-string» : Guards ⟨"open-input-string", fix1 «open-input-string», { req := ["string?"] }⟩ := by guarded [«open-input-string»]

theorem «g:record-type-field-mutable?» : Guards ⟨"record-type-field-mutable?", fix2 «record-type-field-mutable?», { req := ["record-type-descriptor?", "non-negative-integer?"], bound := some (0, 1) }⟩ := by
  intro args h
  rcases args with _ | ⟨a, _ | ⟨b, _ | ⟨c, _ | ⟨d, t⟩⟩⟩⟩
  all_goals first
    | (exfalso; simp [Sig.accepts] at h; done)
    | (exfalso; simp [Sig.accepts] at h; omega)
    | (cases hb : isNat b
       · simp only [fix2, fix3, «record-type-field-mutable?», hb]; split_ifs <;> simp_all [Complete]
       · have hn := nat_num hb
         simp only [fix2, fix3, «record-type-field-mutable?», hb, if_true]
         split_ifs <;> first | exact raiseRange_complete | simp_all [Complete, Sig.legal, Sig.at, Sig.inside])

theorem «g:record-type-equal-procedure» : Guards ⟨"record-type-equal-procedure", typeProcedure "record-type-equal-procedure", { req := ["record-type-descriptor?"], opt := ["procedure?"] }⟩ := by guarded [typeProcedure]

theorem «g:record-type-hash-procedure» : Guards ⟨"record-type-hash-procedure", typeProcedure "record-type-hash-procedure", { req := ["record-type-descriptor?"], opt := ["procedure?"] }⟩ := by guarded [typeProcedure]

theorem «g:record-writer» : Guards ⟨"record-writer", typeProcedure "record-writer", { req := ["record-type-descriptor?"], opt := ["procedure?"] }⟩ := by guarded [typeProcedure]

theorem «g:put-string» : Guards ⟨"put-string", «put-string», { req := ["output-port?", "string?"], opt := ["non-negative-integer?", "non-negative-integer?"] }⟩ := by guarded [«put-string», putString1]

theorem «g:fprintf» : Guards ⟨"fprintf", fprintf, { req := ["output-port?", "string?"], rest := some "any" }⟩ := by
  intro args h
  rcases args with _ | ⟨p, _ | ⟨a, as⟩⟩
  · simp [Sig.accepts] at h
  · simp [Sig.accepts] at h
  · cases hp : isOut p
    · simp [fprintf, hp, Complete]
    · cases ha : isStr a
      · simp [fprintf, fmtArgs, «string-length», hp, ha, Complete]
      · simp only [fprintf, fmtArgs, «string-length», hp, ha, if_true, Complete, Sig.legal, Bool.and_eq_true]
        exact ⟨⟨hp, ha, legal_any _ _ fun i hi => by rcases i with _ | _ | i <;> first | omega | simp [Sig.at]⟩, rfl⟩

theorem «g:printf» : Guards ⟨"printf", formatter "printf", { req := ["string?"], rest := some "any" }⟩ := by
  intro args h
  rcases args with _ | ⟨a, as⟩
  · simp [Sig.accepts] at h
  · cases ha : isStr a
    · simp [formatter, fmtArgs, «string-length», ha, Complete]
    · simp only [formatter, fmtArgs, «string-length», ha, if_true, Complete, Sig.legal, Bool.and_eq_true]
      exact ⟨⟨ha, legal_any _ _ fun i hi => by rcases i with _ | i <;> first | omega | simp [Sig.at]⟩, rfl⟩

theorem «g:eprintf» : Guards ⟨"eprintf", formatter "eprintf", { req := ["string?"], rest := some "any" }⟩ := by
  intro args h
  rcases args with _ | ⟨a, as⟩
  · simp [Sig.accepts] at h
  · cases ha : isStr a
    · simp [formatter, fmtArgs, «string-length», ha, Complete]
    · simp only [formatter, fmtArgs, «string-length», ha, if_true, Complete, Sig.legal, Bool.and_eq_true]
      exact ⟨⟨ha, legal_any _ _ fun i hi => by rcases i with _ | i <;> first | omega | simp [Sig.at]⟩, rfl⟩

theorem «g:format» : Guards ⟨"format", formatter "format", { req := ["string?"], rest := some "any" }⟩ := by
  intro args h
  rcases args with _ | ⟨a, as⟩
  · simp [Sig.accepts] at h
  · cases ha : isStr a
    · simp [formatter, fmtArgs, «string-length», ha, Complete]
    · simp only [formatter, fmtArgs, «string-length», ha, if_true, Complete, Sig.legal, Bool.and_eq_true]
      exact ⟨⟨ha, legal_any _ _ fun i hi => by rcases i with _ | i <;> first | omega | simp [Sig.at]⟩, rfl⟩

theorem «g:copy-environment» : Guards ⟨"copy-environment", «copy-environment», { req := ["environment?"], opt := ["boolean?", "list of symbols"] }⟩ := by
  intro args h
  rcases args with _ | ⟨a, _ | ⟨b, _ | ⟨c, _ | ⟨d, t⟩⟩⟩⟩
  · simp [Sig.accepts] at h
  · cases ha : isEnv a <;> simp [«copy-environment», copyEnv, «environment-symbols», mapper, listsLoop, isProc, isList, elems, isBool, ha, Complete, Sig.legal, Sig.at, Sig.inside]
  · cases ha : isEnv a <;> cases hb : isBool b <;> simp [«copy-environment», copyEnv, «environment-symbols», mapper, listsLoop, isProc, isList, elems, ha, hb, Complete, Sig.legal, Sig.at, Sig.inside]
  · cases ha : isEnv a <;> cases hb : isBool b <;> cases hc : isList c <;> cases hd : (elems c).all isSym <;> simp [«copy-environment», copyEnv, mapper, listsLoop, isProc, ha, hb, hc, hd, Complete, Sig.legal, Sig.at, Sig.inside]
  · simp [Sig.accepts] at h

theorem «g:environment-ref» : Guards ⟨"environment-ref", «environment-ref», { req := ["environment?", "symbol?"], opt := ["any"] }⟩ := by guarded [«environment-ref», envRef1]


/-! ### comparisons -/

theorem compareLoop_cases (who : String) (cmp : Int → Int → Bool) : ∀ (xs : List V) (x : V), (∃ f as, compareLoop who cmp x xs = .go f as) ∨ ∃ v ∈ xs, isInt v = false ∧ compareLoop who cmp x xs = .argument who "number?" v
  | [], _ => Or.inl ⟨_, _, rfl⟩
  | y :: ys, x => by
    cases hy : isInt y
    · exact Or.inr ⟨y, by simp, hy, by simp [compareLoop, hy]⟩
    · cases hc : cmp (num x) (num y)
      · exact Or.inl ⟨_, _, by simp only [compareLoop, hy, hc, if_true]; rfl⟩
      · rcases compareLoop_cases who cmp ys y with ⟨f, as, e⟩ | ⟨v, hm, hv, e⟩
        · exact Or.inl ⟨f, as, by simp [compareLoop, hy, hc, e]⟩
        · exact Or.inr ⟨v, by simp [hm], hv, by simp [compareLoop, hy, hc, e]⟩

theorem compare_cases (who : String) (cmp : Int → Int → Bool) (xs : List V) (hne : xs ≠ []) : (∃ f as, compare who cmp xs = .go f as) ∨ ∃ v ∈ xs, isInt v = false ∧ compare who cmp xs = .argument who "number?" v := by
  rcases xs with _ | ⟨x, _ | ⟨y, _ | ⟨z, zs⟩⟩⟩
  · exact absurd rfl hne
  · cases hx : isInt x <;> simp [compare, hx]
  · cases hx : isInt x <;> cases hy : isInt y <;> simp [compare, hx, hy]
  · cases hx : isInt x
    · exact Or.inr ⟨x, by simp, hx, by simp [compare, hx]⟩
    · rcases compareLoop_cases who cmp (y :: z :: zs) x with ⟨f, as, e⟩ | ⟨v, hm, hv, e⟩
      · exact Or.inl ⟨f, as, by simp [compare, hx, e]⟩
      · exact Or.inr ⟨v, List.mem_cons_of_mem _ hm, hv, by simp [compare, hx, e]⟩

theorem compareLoop_true {who : String} {cmp : Int → Int → Bool} {as : List V} : ∀ {xs : List V} {x : V}, compareLoop who cmp x xs = .go "#t" as → ∀ v ∈ xs, isInt v = true
  | [], _, _ => by simp
  | y :: ys, x, h => by
    cases hy : isInt y
    · simp [compareLoop, hy] at h
    · cases hc : cmp (num x) (num y)
      · simp [compareLoop, hy, hc] at h
      · simp [compareLoop, hy, hc] at h
        simpa [hy] using compareLoop_true h

/-! ### the names of the compositions of `car` and `cdr` -/

/-- Specification: the component that letters, read from the right, select; `none` if there is none. -/
def select : List Char → V → Option V
  | [], v => some v
  | c :: cs, v => match select cs v with
    | some (.pair a d) => if c = 'a' then some a else if c = 'd' then some d else none
    | _ => none

/-- What `$car` and `$cdr` return. -/
def prim : String → V → Option V
  | "$car", .pair a _ => some a
  | "$cdr", .pair _ d => some d
  | _, _ => none

/-- `car` to `cddddr`, by name. -/
def cxrs : List (String × (V → Out)) := [
  ("car", car), ("cdr", cdr), ("caar", caar), ("cadr", cadr), ("cdar", cdar), ("cddr", cddr), ("caaar", caaar), ("caadr", caadr), ("cadar", cadar), ("caddr", caddr), ("cdaar", cdaar), ("cdadr", cdadr), ("cddar", cddar), ("cdddr", cdddr), ("caaaar", caaaar), ("caaadr", caaadr), ("caadar", caadar), ("caaddr", caaddr), ("cadaar", cadaar), ("cadadr", cadadr), ("caddar", caddar), ("cadddr", cadddr), ("cdaaar", cdaaar), ("cdaadr", cdaadr), ("cdadar", cdadar), ("cdaddr", cdaddr), ("cddaar", cddaar), ("cddadr", cddadr), ("cdddar", cdddar), ("cddddr", cddddr)]

/-- Specification: the procedure returns the component its letters select, and reports its argument, under its name, if there is none. -/
def Selects (w : List Char) (f : V → Out) : Prop := ∀ x, match select w x with
  | some y => ∃ g t, f x = .go g [t] ∧ prim g t = some y
  | none => ∃ c, f x = .argument (String.ofList ('c' :: (w ++ ['r']))) c x

/-- Specification: the letters are `a` and `d`. -/
def Letters (w : List Char) : Prop := ∀ c ∈ w, c = 'a' ∨ c = 'd'

theorem select_cons (c : Char) (cs : List Char) (v : V) : select (c :: cs) v = (select cs v).bind fun u => if isPair u then (if c = 'a' then some u.car else if c = 'd' then some u.cdr else none) else none := by
  cases h : select cs v with
  | none => simp [select, h]
  | some u => cases u <;> simp [select, h, isPair, V.car, V.cdr]

theorem prim_car {t : V} (h : isPair t = true) : prim "$car" t = some t.car := by cases t <;> simp_all [isPair, prim, V.car]
theorem prim_cdr {t : V} (h : isPair t = true) : prim "$cdr" t = some t.cdr := by cases t <;> simp_all [isPair, prim, V.cdr]

/-- Proves that a procedure selects. -/
macro "selects" "[" ts:Lean.Parser.Tactic.simpLemma,* "]" : tactic => `(tactic| (
  intro x
  simp only [select_cons, select.eq_1, $ts,*]
  split_ifs <;> simp_all <;> first | rfl | exact ⟨_, _, ⟨rfl, rfl⟩, prim_car (by assumption)⟩ | exact ⟨_, _, ⟨rfl, rfl⟩, prim_cdr (by assumption)⟩))

theorem «s:car» : Selects ['a'] car := by selects [car]
theorem «s:cdr» : Selects ['d'] cdr := by selects [cdr]
theorem «s:caar» : Selects ['a', 'a'] caar := by selects [caar]
theorem «s:cadr» : Selects ['a', 'd'] cadr := by selects [cadr]
theorem «s:cdar» : Selects ['d', 'a'] cdar := by selects [cdar]
theorem «s:cddr» : Selects ['d', 'd'] cddr := by selects [cddr]
theorem «s:caaar» : Selects ['a', 'a', 'a'] caaar := by selects [caaar]
theorem «s:caadr» : Selects ['a', 'a', 'd'] caadr := by selects [caadr]
theorem «s:cadar» : Selects ['a', 'd', 'a'] cadar := by selects [cadar]
theorem «s:caddr» : Selects ['a', 'd', 'd'] caddr := by selects [caddr]
theorem «s:cdaar» : Selects ['d', 'a', 'a'] cdaar := by selects [cdaar]
theorem «s:cdadr» : Selects ['d', 'a', 'd'] cdadr := by selects [cdadr]
theorem «s:cddar» : Selects ['d', 'd', 'a'] cddar := by selects [cddar]
theorem «s:cdddr» : Selects ['d', 'd', 'd'] cdddr := by selects [cdddr]
theorem «s:caaaar» : Selects ['a', 'a', 'a', 'a'] caaaar := by selects [caaaar]
theorem «s:caaadr» : Selects ['a', 'a', 'a', 'd'] caaadr := by selects [caaadr]
theorem «s:caadar» : Selects ['a', 'a', 'd', 'a'] caadar := by selects [caadar]
theorem «s:caaddr» : Selects ['a', 'a', 'd', 'd'] caaddr := by selects [caaddr]
theorem «s:cadaar» : Selects ['a', 'd', 'a', 'a'] cadaar := by selects [cadaar]
theorem «s:cadadr» : Selects ['a', 'd', 'a', 'd'] cadadr := by selects [cadadr]
theorem «s:caddar» : Selects ['a', 'd', 'd', 'a'] caddar := by selects [caddar]
theorem «s:cadddr» : Selects ['a', 'd', 'd', 'd'] cadddr := by selects [cadddr]
theorem «s:cdaaar» : Selects ['d', 'a', 'a', 'a'] cdaaar := by selects [cdaaar]
theorem «s:cdaadr» : Selects ['d', 'a', 'a', 'd'] cdaadr := by selects [cdaadr]
theorem «s:cdadar» : Selects ['d', 'a', 'd', 'a'] cdadar := by selects [cdadar]
theorem «s:cdaddr» : Selects ['d', 'a', 'd', 'd'] cdaddr := by selects [cdaddr]
theorem «s:cddaar» : Selects ['d', 'd', 'a', 'a'] cddaar := by selects [cddaar]
theorem «s:cddadr» : Selects ['d', 'd', 'a', 'd'] cddadr := by selects [cddadr]
theorem «s:cdddar» : Selects ['d', 'd', 'd', 'a'] cdddar := by selects [cdddar]
theorem «s:cddddr» : Selects ['d', 'd', 'd', 'd'] cddddr := by selects [cddddr]

/-! ### C103 -/

/-- **C103.**  For any letters `a` and `d`, one to four, there is a procedure named by them; for any argument it returns the component they select, from the right, or reports the argument, under its own name, if there is no such component. -/
theorem C103_select (w : List Char) (hw : Letters w) (h1 : 1 ≤ w.length) (h4 : w.length ≤ 4) :
    ∃ f, cxrs.lookup (String.ofList ('c' :: (w ++ ['r']))) = some f ∧ Selects w f := by
  rcases w with _ | ⟨a, _ | ⟨b, _ | ⟨c, _ | ⟨d, _ | ⟨e, t⟩⟩⟩⟩⟩
  · simp at h1
  · rcases hw a (by simp) with rfl | rfl
    · exact ⟨_, rfl, «s:car»⟩
    · exact ⟨_, rfl, «s:cdr»⟩
  · rcases hw a (by simp) with rfl | rfl <;> rcases hw b (by simp) with rfl | rfl
    · exact ⟨_, rfl, «s:caar»⟩
    · exact ⟨_, rfl, «s:cadr»⟩
    · exact ⟨_, rfl, «s:cdar»⟩
    · exact ⟨_, rfl, «s:cddr»⟩
  · rcases hw a (by simp) with rfl | rfl <;> rcases hw b (by simp) with rfl | rfl <;> rcases hw c (by simp) with rfl | rfl
    · exact ⟨_, rfl, «s:caaar»⟩
    · exact ⟨_, rfl, «s:caadr»⟩
    · exact ⟨_, rfl, «s:cadar»⟩
    · exact ⟨_, rfl, «s:caddr»⟩
    · exact ⟨_, rfl, «s:cdaar»⟩
    · exact ⟨_, rfl, «s:cdadr»⟩
    · exact ⟨_, rfl, «s:cddar»⟩
    · exact ⟨_, rfl, «s:cdddr»⟩
  · rcases hw a (by simp) with rfl | rfl <;> rcases hw b (by simp) with rfl | rfl <;> rcases hw c (by simp) with rfl | rfl <;> rcases hw d (by simp) with rfl | rfl
    · exact ⟨_, rfl, «s:caaaar»⟩
    · exact ⟨_, rfl, «s:caaadr»⟩
    · exact ⟨_, rfl, «s:caadar»⟩
    · exact ⟨_, rfl, «s:caaddr»⟩
    · exact ⟨_, rfl, «s:cadaar»⟩
    · exact ⟨_, rfl, «s:cadadr»⟩
    · exact ⟨_, rfl, «s:caddar»⟩
    · exact ⟨_, rfl, «s:cadddr»⟩
    · exact ⟨_, rfl, «s:cdaaar»⟩
    · exact ⟨_, rfl, «s:cdaadr»⟩
    · exact ⟨_, rfl, «s:cdadar»⟩
    · exact ⟨_, rfl, «s:cdaddr»⟩
    · exact ⟨_, rfl, «s:cddaar»⟩
    · exact ⟨_, rfl, «s:cddadr»⟩
    · exact ⟨_, rfl, «s:cdddar»⟩
    · exact ⟨_, rfl, «s:cddddr»⟩
  · simp at h4

/-- No other name is in the table. -/
theorem C103_names : cxrs.length = 30 ∧ (cxrs.map Prod.fst).Nodup := by decide

example : cxrs.lookup "cadr" = some cadr ∧ cadr (.pair .tru (.pair .fls .null)) = .go "$car" [.pair .fls .null] ∧ prim "$car" (.pair .fls .null) = some .fls := ⟨rfl, rfl, rfl⟩
example : select ['a', 'd'] (.pair .tru .null) = none ∧ cadr (.pair .tru .null) = .argument "cadr" "(pairof any pair?)" (.pair .tru .null) := by decide

/-! ### C102 -/

/-- **C102**, for the hundred procedures of `good`: for any arguments of the right number, if a procedure goes on then all its arguments satisfy their contracts, an index is inside and lists that must be of one length are; and if it
reports something then it names itself, an argument that does not satisfy its contract, and a contract which that argument does not satisfy.  Missing: the procedures of `bad` and `comparisons`, for which it is wrong (`C102_negated_report`). -/
theorem C102_report_partial : ∀ r ∈ good, Reports r :=
  List.forall_mem_cons.2 ⟨«r:car», List.forall_mem_cons.2 ⟨«r:cdr», List.forall_mem_cons.2 ⟨«r:caar», List.forall_mem_cons.2 ⟨«r:cadr», List.forall_mem_cons.2 ⟨«r:cdar», List.forall_mem_cons.2 ⟨«r:cddr», List.forall_mem_cons.2 ⟨«r:caaar», List.forall_mem_cons.2 ⟨«r:caadr», List.forall_mem_cons.2 ⟨«r:cadar», List.forall_mem_cons.2 ⟨«r:cdaar», List.forall_mem_cons.2 ⟨«r:cdadr», List.forall_mem_cons.2 ⟨«r:cddar», List.forall_mem_cons.2 ⟨«r:caaaar», List.forall_mem_cons.2 ⟨«r:caaadr», List.forall_mem_cons.2 ⟨«r:caadar», List.forall_mem_cons.2 ⟨«r:cadaar», List.forall_mem_cons.2 ⟨«r:cadadr», List.forall_mem_cons.2 ⟨«r:caddar», List.forall_mem_cons.2 ⟨«r:cdaaar», List.forall_mem_cons.2 ⟨«r:cdaadr», List.forall_mem_cons.2 ⟨«r:cdadar», List.forall_mem_cons.2 ⟨«r:cddaar», List.forall_mem_cons.2 ⟨«r:cddadr», List.forall_mem_cons.2 ⟨«r:cdddar», List.forall_mem_cons.2 ⟨«r:set-car!», List.forall_mem_cons.2 ⟨«r:set-cdr!», List.forall_mem_cons.2 ⟨«r:add1», List.forall_mem_cons.2 ⟨«r:sub1», List.forall_mem_cons.2 ⟨«r:remainder», List.forall_mem_cons.2 ⟨«r:modulo», List.forall_mem_cons.2 ⟨«r:procedure-arity», List.forall_mem_cons.2 ⟨«r:procedure-name», List.forall_mem_cons.2 ⟨«r:procedure-rename», List.forall_mem_cons.2 ⟨«r:char->integer», List.forall_mem_cons.2 ⟨«r:integer->char», List.forall_mem_cons.2 ⟨«r:string-length», List.forall_mem_cons.2 ⟨«r:number->string», List.forall_mem_cons.2 ⟨«r:string->number», List.forall_mem_cons.2 ⟨«r:symbol->string», List.forall_mem_cons.2 ⟨«r:string->symbol», List.forall_mem_cons.2 ⟨«r:string->list», List.forall_mem_cons.2 ⟨«r:length», List.forall_mem_cons.2 ⟨«r:reverse», List.forall_mem_cons.2 ⟨«r:enumerate», List.forall_mem_cons.2 ⟨«r:vector-length», List.forall_mem_cons.2 ⟨«r:list->vector», List.forall_mem_cons.2 ⟨«r:vector->list», List.forall_mem_cons.2 ⟨«r:unbox», List.forall_mem_cons.2 ⟨«r:set-box!», List.forall_mem_cons.2 ⟨«r:open-input-file», List.forall_mem_cons.2 ⟨«r:open-output-file», List.forall_mem_cons.2 ⟨«r:record-rtd», List.forall_mem_cons.2 ⟨«r:record-constructor», List.forall_mem_cons.2 ⟨«r:record-predicate», List.forall_mem_cons.2 ⟨«r:hashtable-copy», List.forall_mem_cons.2 ⟨«r:hashtable-entries», List.forall_mem_cons.2 ⟨«r:hashtable-set!», List.forall_mem_cons.2 ⟨«r:hashtable-clear!», List.forall_mem_cons.2 ⟨«r:record-equal-procedure», List.forall_mem_cons.2 ⟨«r:flush-output-port», List.forall_mem_cons.2 ⟨«r:put-datum», List.forall_mem_cons.2 ⟨«r:fasl-read», List.forall_mem_cons.2 ⟨«r:fasl-write», List.forall_mem_cons.2 ⟨«r:syntax-e», List.forall_mem_cons.2 ⟨«r:syntax-loc», List.forall_mem_cons.2 ⟨«r:syntax->datum», List.forall_mem_cons.2 ⟨«r:syntax->list», List.forall_mem_cons.2 ⟨«r:make-pattern-variable», List.forall_mem_cons.2 ⟨«r:environment-symbols», List.forall_mem_cons.2 ⟨«r:environment-set!», List.forall_mem_cons.2 ⟨«r:load», List.forall_mem_cons.2 ⟨«r:read», List.forall_mem_cons.2 ⟨«r:read-char», List.forall_mem_cons.2 ⟨«r:peek-char», List.forall_mem_cons.2 ⟨«r:char-ready?», List.forall_mem_cons.2 ⟨«r:make-vector», List.forall_mem_cons.2 ⟨«r:write-char», List.forall_mem_cons.2 ⟨«r:write», List.forall_mem_cons.2 ⟨«r:display», List.forall_mem_cons.2 ⟨«r:current-environment», List.forall_mem_cons.2 ⟨«r:current-directory», List.forall_mem_cons.2 ⟨«r:current-error-handler», List.forall_mem_cons.2 ⟨«r:exit», List.forall_mem_cons.2 ⟨«r:default-record-equal-procedure», List.forall_mem_cons.2 ⟨«r:default-record-hash-procedure», List.forall_mem_cons.2 ⟨«r:hashtable-ref», List.forall_mem_cons.2 ⟨«r:hashtable-update!», List.forall_mem_cons.2 ⟨«r:+», List.forall_mem_cons.2 ⟨«r:-», List.forall_mem_cons.2 ⟨«r:string», List.forall_mem_cons.2 ⟨«r:string-ref», List.forall_mem_cons.2 ⟨«r:string-set!», List.forall_mem_cons.2 ⟨«r:append», List.forall_mem_cons.2 ⟨«r:for-each», List.forall_mem_cons.2 ⟨«r:map», List.forall_mem_cons.2 ⟨«r:andmap», List.forall_mem_cons.2 ⟨«r:ormap», List.forall_mem_cons.2 ⟨«r:get-output-string», List.forall_mem_cons.2 ⟨«r:record-accessor», List.forall_mem_cons.2 ⟨«r:record-mutator», List.forall_mem_nil _⟩⟩⟩⟩⟩⟩⟩⟩⟩⟩⟩⟩⟩⟩⟩⟩⟩⟩⟩⟩⟩⟩⟩⟩⟩⟩⟩⟩⟩⟩⟩⟩⟩⟩⟩⟩⟩⟩⟩⟩⟩⟩⟩⟩⟩⟩⟩⟩⟩⟩⟩⟩⟩⟩⟩⟩⟩⟩⟩⟩⟩⟩⟩⟩⟩⟩⟩⟩⟩⟩⟩⟩⟩⟩⟩⟩⟩⟩⟩⟩⟩⟩⟩⟩⟩⟩⟩⟩⟩⟩⟩⟩⟩⟩⟩⟩⟩⟩⟩⟩

/-- **C102**, for the procedures of `bad` as well: none of them goes on with an argument that does not satisfy its contract, or with an index out of bounds; so no primitive is reached with arguments of wrong type. -/
theorem C102_guard : ∀ r ∈ good ++ bad.map Prod.fst, Guards r := by
  intro r hr
  rcases List.mem_append.1 hr with h | h
  · exact fun args ha => (C102_report_partial r h args ha).2
  · exact (show ∀ r ∈ bad.map Prod.fst, Guards r from
      List.forall_mem_cons.2 ⟨«g:caddr», List.forall_mem_cons.2 ⟨«g:cdddr», List.forall_mem_cons.2 ⟨«g:caaddr», List.forall_mem_cons.2 ⟨«g:cadddr», List.forall_mem_cons.2 ⟨«g:cdaddr», List.forall_mem_cons.2 ⟨«g:cddddr», List.forall_mem_cons.2 ⟨«g:make-list», List.forall_mem_cons.2 ⟨«g:iota», List.forall_mem_cons.2 ⟨«g:vector-fill!», List.forall_mem_cons.2 ⟨«g:close-input-port», List.forall_mem_cons.2 ⟨«g:close-output-port», List.forall_mem_cons.2 ⟨«g:record-type-name», List.forall_mem_cons.2 ⟨«g:record-type-parent», List.forall_mem_cons.2 ⟨«g:record-type-uid», List.forall_mem_cons.2 ⟨«g:record-type-sealed?», List.forall_mem_cons.2 ⟨«g:record-type-opaque?», List.forall_mem_cons.2 ⟨«g:record-type-field-names», List.forall_mem_cons.2 ⟨«g:hashtable-size», List.forall_mem_cons.2 ⟨«g:hashtable-keys», List.forall_mem_cons.2 ⟨«g:hashtable-vals», List.forall_mem_cons.2 ⟨«g:hashtable-contains?», List.forall_mem_cons.2 ⟨«g:hashtable-delete!», List.forall_mem_cons.2 ⟨«g:record-hash-procedure», List.forall_mem_cons.2 ⟨«g:put-char», List.forall_mem_cons.2 ⟨«g:newline», List.forall_mem_cons.2 ⟨«g:*», List.forall_mem_cons.2 ⟨«g:/», List.forall_mem_cons.2 ⟨«g:zero?», List.forall_mem_cons.2 ⟨«g:list->string», List.forall_mem_cons.2 ⟨«g:make-string», List.forall_mem_cons.2 ⟨«g:string-append», List.forall_mem_cons.2 ⟨«g:vector-ref», List.forall_mem_cons.2 ⟨«g:vector-set!», List.forall_mem_cons.2 ⟨«g:open-input-string», List.forall_mem_cons.2 ⟨«g:record-type-field-mutable?», List.forall_mem_cons.2 ⟨«g:record-type-equal-procedure», List.forall_mem_cons.2 ⟨«g:record-type-hash-procedure», List.forall_mem_cons.2 ⟨«g:record-writer», List.forall_mem_cons.2 ⟨«g:put-string», List.forall_mem_cons.2 ⟨«g:fprintf», List.forall_mem_cons.2 ⟨«g:printf», List.forall_mem_cons.2 ⟨«g:eprintf», List.forall_mem_cons.2 ⟨«g:format», List.forall_mem_cons.2 ⟨«g:copy-environment», List.forall_mem_cons.2 ⟨«g:environment-ref», List.forall_mem_nil _⟩⟩⟩⟩⟩⟩⟩⟩⟩⟩⟩⟩⟩⟩⟩⟩⟩⟩⟩⟩⟩⟩⟩⟩⟩⟩⟩⟩⟩⟩⟩⟩⟩⟩⟩⟩⟩⟩⟩⟩⟩⟩⟩⟩⟩) r h

/-- **C102**, for comparisons: what they report is right; and with three and more arguments they answer true only if all are numbers. -/
theorem C102_compare (r : Row) (hr : r ∈ comparisons.map Prod.fst) (args : List V) (h : args ≠ []) :
    Accurate r args (r.f args) = true ∧ (3 ≤ args.length → ∀ as, r.f args = .go "#t" as → ∀ v ∈ args, isInt v = true) := by
  have key : ∀ (who : String) (cmp : Int → Int → Bool), Accurate ⟨who, compare who cmp, { req := ["number?"], rest := some "number?" }⟩ args (compare who cmp args) = true
      ∧ (3 ≤ args.length → ∀ as, compare who cmp args = .go "#t" as → ∀ v ∈ args, isInt v = true) := by
    intro who cmp
    refine ⟨?_, fun h3 as e => ?_⟩
    · rcases compare_cases who cmp args h with ⟨f, as, e⟩ | ⟨v, hm, hv, e⟩
      · rw [e]; rfl
      · rw [e]; exact accurate_uniform (r := ⟨who, compare who cmp, { req := ["number?"], rest := some "number?" }⟩) (c := "number?") (at_one _) rfl hm hv
    · rcases args with _ | ⟨x, _ | ⟨y, _ | ⟨z, zs⟩⟩⟩
      · simp at h3
      · simp at h3
      · simp at h3
      · cases hx : isInt x
        · simp [compare, hx] at e
        · simp [compare, hx] at e
          have := compareLoop_true e
          simpa [hx] using this
  simp only [comparisons, List.map_cons, List.map_nil, List.mem_cons, List.not_mem_nil, or_false] at hr
  rcases hr with rfl | rfl | rfl | rfl | rfl <;> exact key _ _

/-- **C102 does not hold** for the procedures of `bad` and `comparisons`: with the arguments given there, of the right number, what is reported is wrong, or nothing is reported though an argument is wrong. -/
theorem C102_negated_report : ∀ x ∈ bad ++ comparisons, ¬ Reports x.1 := by
  have h : ((bad ++ comparisons).all fun x => x.1.sig.accepts x.2.length && !(Accurate x.1 x.2 (x.1.f x.2) && Complete x.1 x.2 (x.1.f x.2))) = true := by decide
  intro x hx hr
  have := List.all_eq_true.1 h x hx
  simp only [Bool.and_eq_true, Bool.not_eq_true'] at this
  have h2 := hr x.2 this.1
  rw [h2.1, h2.2] at this
  exact absurd this.2 (by decide)

/-- Reports that are wrong: an undefined variable is used, ... -/
example : «make-string» [.null] = .unbound "len" ∧ «string-append» [.null] = .unbound "s" ∧ «open-input-string» .null = .unbound "name" ∧ divide [.int 1, .int 0] = .unbound "division-0-error" := by decide
/-- ... another procedure is named, ... -/
example : «make-list» .null .null = .argument "length" "non-negative-integer?" .null ∧ «hashtable-size» .null = .argument "hashtable-set!" "hashtable?" .null ∧ divide [.int 1, .tru] = .argument "-" "number?" .tru := by decide
/-- ... another argument is reported, ... -/
example : times [.int 1, .tru, .int 2] = .argument "*" "number?" (.int 1) ∧ «put-char» .null (.chr 0) = .argument "put-char" "output-port?" (.chr 0) := by decide
/-- ... a contract the argument satisfies is reported, ... -/
example : «put-string» [.outPort true 0, .str "", .int (-1)] = .argument "put-string" "integer?" (.int (-1)) := by decide
/-- ... or the procedure that reports complains about how it was called. -/
example : «vector-ref» (.vec 0 0) (.int 0) = .argument "raise-range-error" "string?" (.vec 0 0) := by decide
/-- A comparison that is decided does not look at the arguments that follow. -/
example : compare "<" (fun a b => decide (a < b)) [.int 1, .int 0, .null] = .go "#f" [] := by decide
/-- Reports that are right. -/
example : «set-car!» .null .tru = .argument "set-car!" "pair?" .null ∧ plus [.int 1, .int 2, .tru] = .argument "+" "number?" .tru ∧ «string-ref» (.str "ab") (.int 2) = .range "string-ref" (.str "ab") "" 0 2 2 := by decide
example : mapper "map" [.proc 0, .pair .tru .null, .null] = .error "map" "lists do not have same size" := by decide
example : good.length = 100 ∧ bad.length = 45 ∧ comparisons.length = 5 := by decide

end Minim.Pre
