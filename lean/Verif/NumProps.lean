import Verif.Num
import Mathlib.Algebra.BigOperators.Group.List.Basic
import Mathlib.Data.Int.Basic

set_option autoImplicit false

/-! # Properties of fixnum arithmetic (C21-C24) -/

namespace Minim.Num

/-- the integers a fixnum can hold (specification) -/
def Fits (z : Int) : Prop := -9223372036854775808 ≤ z ∧ z ≤ 9223372036854775807

theorem fits_toInt (w : Word) : Fits w.toInt := by
  have h1 := BitVec.le_toInt w
  have h2 := BitVec.toInt_lt (x := w)
  simp at h1 h2
  unfold Fits; omega

theorem toInt_ofInt_fits {z : Int} (h : Fits z) : (BitVec.ofInt 64 z).toInt = z := by
  rw [BitVec.toInt_ofInt]
  apply Int.bmod_eq_of_le
  · have := h.1; omega
  · have := h.2; omega

theorem eq_of_toInt {a b : Word} (h : a.toInt = b.toInt) : a = b := BitVec.eq_of_toInt_eq h

/-! ## C21 -/

/-- an operation is exact: it returns precisely when the mathematical result fits, and then returns it; otherwise the
behaviour is undefined (specification) -/
def Exact (o : Res Word) (z : Int) : Prop :=
  (Fits z → ∃ r, o = .ok r ∧ r.toInt = z) ∧ (¬ Fits z → o = .ub)

theorem exact_of {b : Bool} {w : Word} {z : Int} (hb : b = true ↔ ¬ Fits z) (hw : b = false → w.toInt = z) :
    Exact (if b then .ub else .ok w) z := by
  constructor
  · intro hf
    cases b with
    | true => exact absurd hf (hb.1 rfl)
    | false => exact ⟨w, rfl, hw rfl⟩
  · intro hf; rw [hb.2 hf]; rfl

/-- C21, addition -/
theorem C21_add (x y : Word) : Exact (fx2Add x y) (x.toInt + y.toInt) := by
  have hb : x.saddOverflow y = true ↔ ¬ Fits (x.toInt + y.toInt) := by
    simp only [BitVec.saddOverflow, Fits]; simp; omega
  exact exact_of hb (fun h => by
    have hf : Fits (x.toInt + y.toInt) := by by_contra hn; rw [hb.2 hn] at h; cases h
    rw [BitVec.toInt_add, ← BitVec.toInt_ofInt, toInt_ofInt_fits hf])

/-- C21, subtraction -/
theorem C21_sub (x y : Word) : Exact (fx2Sub x y) (x.toInt - y.toInt) := by
  have hb : x.ssubOverflow y = true ↔ ¬ Fits (x.toInt - y.toInt) := by
    simp only [BitVec.ssubOverflow, Fits]; simp; omega
  exact exact_of hb (fun h => by
    have hf : Fits (x.toInt - y.toInt) := by by_contra hn; rw [hb.2 hn] at h; cases h
    rw [BitVec.toInt_sub, ← BitVec.toInt_ofInt, toInt_ofInt_fits hf])

/-- C21, multiplication -/
theorem C21_mul (x y : Word) : Exact (fx2Mul x y) (x.toInt * y.toInt) := by
  have hb : x.smulOverflow y = true ↔ ¬ Fits (x.toInt * y.toInt) := by
    simp only [BitVec.smulOverflow, Fits]; simp; omega
  exact exact_of hb (fun h => by
    have hf : Fits (x.toInt * y.toInt) := by by_contra hn; rw [hb.2 hn] at h; cases h
    rw [BitVec.toInt_mul, ← BitVec.toInt_ofInt, toInt_ofInt_fits hf])

/-- C21, negation -/
theorem C21_neg (x : Word) : Exact (fxNeg x) (-x.toInt) := by
  have hx := fits_toInt x
  have hb : x.negOverflow = true ↔ ¬ Fits (-x.toInt) := by
    simp only [BitVec.negOverflow, Fits] at *; simp; omega
  exact exact_of hb (fun h => by
    have hf : Fits (-x.toInt) := by by_contra hn; rw [hb.2 hn] at h; cases h
    rw [BitVec.toInt_neg, ← BitVec.toInt_ofInt, toInt_ofInt_fits hf])

/-- C21, `add1` and `sub1` -/
theorem C21_add1_sub1 (x : Word) : Exact (add1 (.num x)) (x.toInt + 1) ∧ Exact (sub1 (.num x)) (x.toInt - 1) :=
  ⟨C21_add x 1#64, C21_sub x 1#64⟩

example : fx2Add 9223372036854775807#64 1#64 = .ub ∧ fx2Add 5#64 (-7#64) = .ok (-2#64) ∧
    fx2Mul 4294967296#64 2147483648#64 = .ub ∧ fxNeg (BitVec.intMin 64) = .ub := by decide

theorem Exact.ok_iff {o : Res Word} {z : Int} (h : Exact o z) (r : Word) : o = .ok r ↔ Fits z ∧ r.toInt = z := by
  constructor
  · intro ho
    by_cases hf : Fits z
    · obtain ⟨r', h1, h2⟩ := h.1 hf
      rw [h1] at ho; cases ho; exact ⟨hf, h2⟩
    · rw [h.2 hf] at ho; cases ho
  · rintro ⟨hf, hr⟩
    obtain ⟨r', h1, h2⟩ := h.1 hf
    rw [h1, eq_of_toInt (h2.trans hr.symm)]

/-! ## C22 -/

theorem divUndefined_iff (x y : Word) : divUndefined x y = true ↔ y.toInt = 0 ∨ (x.toInt = -9223372036854775808 ∧ y.toInt = -1) := by
  have h0 : y = 0#64 ↔ y.toInt = 0 := ⟨fun h => by rw [h]; rfl, fun h => eq_of_toInt (h.trans rfl)⟩
  have h1 : y = -1#64 ↔ y.toInt = -1 := ⟨fun h => by rw [h]; rfl, fun h => eq_of_toInt (h.trans (by decide))⟩
  have h2 : x = BitVec.intMin 64 ↔ x.toInt = -9223372036854775808 :=
    ⟨fun h => by rw [h]; decide, fun h => eq_of_toInt (h.trans (by decide))⟩
  simp only [divUndefined, Bool.or_eq_true, beq_iff_eq, Bool.and_eq_true, h0, h1, h2]

theorem tdiv_fits {x y : Int} (hx : Fits x) (h : ¬ (y = 0 ∨ (x = -9223372036854775808 ∧ y = -1))) : Fits (x.tdiv y) := by
  have hle := Int.natAbs_tdiv_le_natAbs x y
  unfold Fits at *
  by_cases hy : y = -1
  · subst hy
    have : x.tdiv (-1) = -x := by rw [Int.tdiv_neg, Int.tdiv_one]
    rw [this]; omega
  · by_cases hx' : x = -9223372036854775808
    · by_cases hy1 : y = 1
      · subst hy1; rw [Int.tdiv_one]; omega
      · have h2 : 2 ≤ y.natAbs := by omega
        have h3 : (x.tdiv y).natAbs = x.natAbs / y.natAbs := Int.natAbs_tdiv x y
        have h4 : x.natAbs / y.natAbs ≤ x.natAbs / 2 := Nat.div_le_div_left h2 (by omega)
        omega
    · omega

theorem fx2Div_toInt {x y q : Word} (h : fx2Div x y = .ok q) : y.toInt ≠ 0 ∧ q.toInt = x.toInt.tdiv y.toInt := by
  unfold fx2Div at h
  cases hd : divUndefined x y with
  | true => rw [hd] at h; cases h
  | false =>
    rw [hd] at h; cases h
    have hn : ¬ (y.toInt = 0 ∨ (x.toInt = -9223372036854775808 ∧ y.toInt = -1)) := by
      rw [← divUndefined_iff, hd]; simp
    refine ⟨fun h => hn (Or.inl h), ?_⟩
    rw [BitVec.toInt_sdiv, ← BitVec.toInt_ofInt, toInt_ofInt_fits (tdiv_fits (fits_toInt x) hn)]

theorem fxRemainder_toInt {x y r : Word} (h : fxRemainder x y = .ok r) : y.toInt ≠ 0 ∧ r.toInt = x.toInt.tmod y.toInt := by
  unfold fxRemainder at h
  cases hd : divUndefined x y with
  | true => rw [hd] at h; cases h
  | false =>
    rw [hd] at h; cases h
    have hn : ¬ (y.toInt = 0 ∨ (x.toInt = -9223372036854775808 ∧ y.toInt = -1)) := by
      rw [← divUndefined_iff, hd]; simp
    exact ⟨fun h => hn (Or.inl h), BitVec.toInt_srem x y⟩

theorem div_two (x y : Word) (hy : y.toInt ≠ 0) : div [.num x, .num y] = fx2Div x y := by
  have : y ≠ 0#64 := by rintro rfl; exact hy rfl
  simp [div, this]

/-- C22: `/` of two numbers and `remainder` return for every divisor other than 0, except LONG_MIN by -1. -/
theorem C22_defined (x y : Word) (hy : y.toInt ≠ 0) (hm : ¬ (x.toInt = -9223372036854775808 ∧ y.toInt = -1)) :
    ∃ q r, div [.num x, .num y] = .ok q ∧ remainder (.num x) (.num y) = .ok r := by
  have hd : divUndefined x y = false := by
    rw [Bool.eq_false_iff]; intro h; rcases (divUndefined_iff x y).1 h with h | h
    · exact hy h
    · exact hm h
  refine ⟨x.sdiv y, x.srem y, ?_, ?_⟩
  · rw [div_two x y hy, fx2Div, hd]; rfl
  · rw [remainder, fxRemainder, hd]; rfl

/-- C22: quotient and remainder satisfy the division law; the remainder is smaller than the divisor and has the sign of the
dividend. -/
theorem C22_division_law (x y q r : Word) (hq : div [.num x, .num y] = .ok q)
    (hr : remainder (.num x) (.num y) = .ok r) :
    x.toInt = y.toInt * q.toInt + r.toInt ∧ r.toInt.natAbs < y.toInt.natAbs ∧ (0 ≤ x.toInt → 0 ≤ r.toInt) ∧
      (x.toInt ≤ 0 → r.toInt ≤ 0) := by
  obtain ⟨hy, h2⟩ := fxRemainder_toInt hr
  rw [div_two x y hy] at hq
  obtain ⟨-, h1⟩ := fx2Div_toInt hq
  rw [h1, h2]
  refine ⟨(Int.mul_tdiv_add_tmod _ _).symm, ?_, fun h => Int.tmod_nonneg _ h, fun h => ?_⟩
  · rw [Int.natAbs_tmod]; exact Nat.mod_lt _ (by omega)
  · have := Int.tmod_nonneg (a := -x.toInt) y.toInt (by omega)
    rw [Int.neg_tmod] at this; omega

example : div [.num (-7#64), .num 2#64] = .ok (-3#64) ∧ remainder (.num (-7#64)) (.num 2#64) = .ok (-1#64) := by decide

/-- C22 fails: `modulo` adds the divisor whenever the signs differ, also to a zero remainder.  For every multiple of the
divisor of opposite sign (zero with a negative divisor included) the result is the divisor itself, out of range. -/
theorem C22_negated_modulo (x y : Word) (hy : y.toInt ≠ 0) (hm : ¬ (x.toInt = -9223372036854775808 ∧ y.toInt = -1))
    (hdvd : y.toInt ∣ x.toInt) (hs : ¬ (x.toInt < 0 ↔ y.toInt < 0)) : modulo (.num x) (.num y) = .ok y := by
  obtain ⟨_, r, -, hr⟩ := C22_defined x y hy hm
  have h0 : r.toInt = 0 := by
    rw [(fxRemainder_toInt hr).2]; exact Int.tmod_eq_zero_of_dvd hdvd
  have hr0 : r = 0#64 := eq_of_toInt h0
  rw [modulo, fxModulo]
  simp only [remainder] at hr
  rw [hr, hr0]
  have hb : (x.slt 0#64 != y.slt 0#64) = true := by
    simp only [BitVec.slt, bne_iff_ne, ne_eq, decide_eq_decide]
    exact hs
  simp only [Res.ok_bind, hb, if_true]
  exact ((C21_add 0#64 y).ok_iff y).2 ⟨by simpa using fits_toInt y, by simp⟩

/-- a witness: (modulo -4 2) is 2 -/
example : modulo (.num (-4#64)) (.num 2#64) = .ok 2#64 := by decide

/-- C22: in all other cases `modulo` is congruent to the dividend and lies between 0 and the divisor.  Missing: multiples of
the divisor of opposite sign (`C22_negated_modulo`). -/
theorem C22_modulo_partial (x y : Word) (hy : y.toInt ≠ 0) (hm : ¬ (x.toInt = -9223372036854775808 ∧ y.toInt = -1))
    (hx : ¬ y.toInt ∣ x.toInt ∨ (x.toInt < 0 ↔ y.toInt < 0)) :
    ∃ m, modulo (.num x) (.num y) = .ok m ∧ y.toInt ∣ x.toInt - m.toInt ∧
      (0 < y.toInt → 0 ≤ m.toInt ∧ m.toInt < y.toInt) ∧ (y.toInt < 0 → y.toInt < m.toInt ∧ m.toInt ≤ 0) := by
  obtain ⟨q, r, hq, hr⟩ := C22_defined x y hy hm
  obtain ⟨l1, l2, l3, l4⟩ := C22_division_law x y q r hq hr
  have hdvd : y.toInt ∣ x.toInt - r.toInt := ⟨q.toInt, by omega⟩
  have hfx := fits_toInt x
  have hfy := fits_toInt y
  simp only [remainder] at hr
  rw [modulo, fxModulo, hr]
  by_cases hs : x.toInt < 0 ↔ y.toInt < 0
  · have hb : (x.slt 0#64 != y.slt 0#64) = false := by
      simp only [BitVec.slt, bne_eq_false_iff_eq, decide_eq_decide]; exact hs
    refine ⟨r, by simp [hb], hdvd, ?_, ?_⟩ <;> intro h <;> omega
  · have hb : (x.slt 0#64 != y.slt 0#64) = true := by
      simp only [BitVec.slt, bne_iff_ne, ne_eq, decide_eq_decide]; exact hs
    have hne : r.toInt ≠ 0 := by
      intro h0
      rcases hx with hx | hx
      · rw [h0] at hdvd; exact hx (by simpa using hdvd)
      · exact hs hx
    have hf : Fits (r.toInt + y.toInt) := by unfold Fits at *; omega
    obtain ⟨m, h1, h2⟩ := (C21_add r y).1 hf
    refine ⟨m, by simpa [hb] using h1, ?_, ?_, ?_⟩
    · rw [h2, show x.toInt - (r.toInt + y.toInt) = (x.toInt - r.toInt) - y.toInt by omega]
      exact Int.dvd_sub hdvd (Int.dvd_refl _)
    · intro h; omega
    · intro h; omega

example : modulo (.num (-7#64)) (.num 2#64) = .ok 1#64 ∧ modulo (.num 7#64) (.num (-2#64)) = .ok (-1#64) := by decide

/-- C22 fails: `remainder` and `modulo` by zero are undefined behaviour for every dividend. -/
theorem C22_negated_zero (x : Word) : remainder (.num x) (.num 0#64) = .ub ∧ modulo (.num x) (.num 0#64) = .ub := by
  have : fxRemainder x 0#64 = .ub := by simp [fxRemainder, divUndefined]
  exact ⟨this, by simp [modulo, fxModulo, this]⟩

theorem divLoop_zero : ∀ (rest : List Val) (x : Word), .num 0#64 ∈ rest → ∀ r, divLoop x rest ≠ .ok r
  | .num y :: ys, x, h, r => by
    rw [divLoop]
    by_cases hy : y = 0#64
    · simp [hy]
    · rw [if_neg hy]
      have hmem : .num 0#64 ∈ ys := by
        rcases List.mem_cons.1 h with h | h
        · exact absurd (by cases h; rfl) hy
        · exact h
      intro he
      obtain ⟨z, -, he⟩ := Res.bind_eq_ok.1 he
      exact divLoop_zero ys z hmem r he
  | .other :: ys, x, h, r => by simp [divLoop]

/-- C22: `/` by zero never returns; for one or two arguments it is an error. -/
theorem C22_div_zero_partial (x : Word) : div [.num 0#64] = .err ∧ div [.num x, .num 0#64] = .err ∧
    ∀ (rest : List Val) (r : Word), .num 0#64 ∈ rest → div (.num x :: rest) ≠ .ok r := by
  refine ⟨rfl, rfl, ?_⟩
  intro rest r h
  match rest, h with
  | [.num y], h => simp only [List.mem_singleton, Val.num.injEq] at h; simp [div, ← h]
  | [.other], h => simp at h
  | .other :: y :: ys, h => simp [div]
  | .num y :: z :: ys, h =>
    rw [div]
    · by_cases hy : y = 0#64
      · simp [hy]
      · rw [if_neg hy]
        intro he
        obtain ⟨w, -, he⟩ := Res.bind_eq_ok.1 he
        refine divLoop_zero (z :: ys) w ?_ r he
        rcases List.mem_cons.1 h with h | h
        · exact absurd (by cases h; rfl) hy
        · exact h
    · simp_all

/-- C22: LONG_MIN by -1 is undefined behaviour in all three operations. -/
theorem C22_negated_min : div [.num (BitVec.intMin 64), .num (-1#64)] = .ub ∧
    remainder (.num (BitVec.intMin 64)) (.num (-1#64)) = .ub ∧ modulo (.num (BitVec.intMin 64)) (.num (-1#64)) = .ub := by
  decide

/-! ## C23 -/

/-- folding from the left, every intermediate result fitting: the value; otherwise undefined (specification) -/
def FoldsTo (o : Res Word) (f : Int → Int → Int) (a : Int) (rest : List Int) : Prop :=
  ((∀ p, p <+: rest → Fits (p.foldl f a)) → ∃ r, o = .ok r ∧ r.toInt = rest.foldl f a) ∧
  ((∃ p, p <+: rest ∧ ¬ Fits (p.foldl f a)) → o = .ub)

theorem argLoop_folds {op : Word → Word → Res Word} {f : Int → Int → Int} (h : ∀ x y, Exact (op x y) (f x.toInt y.toInt)) :
    ∀ (ys : List Word) (x : Word), FoldsTo (argLoop op x (ys.map .num)) f x.toInt (ys.map BitVec.toInt)
  | [], x => ⟨fun _ => ⟨x, rfl, rfl⟩, fun ⟨p, hp, hn⟩ => by
      have : p = [] := by simpa using hp
      subst this; exact absurd (fits_toInt x) hn⟩
  | y :: ys, x => by
    simp only [List.map_cons, argLoop]
    by_cases hf : Fits (f x.toInt y.toInt)
    · obtain ⟨z, hz, hzi⟩ := (h x y).1 hf
      obtain ⟨h1, h2⟩ := argLoop_folds h ys z
      rw [hz]
      simp only [Res.ok_bind]
      constructor
      · intro hp
        obtain ⟨r, hr, hri⟩ := h1 (fun p hpre => by
          have := hp (y.toInt :: p) ((List.prefix_cons_inj _).2 hpre)
          rw [hzi]; simpa using this)
        exact ⟨r, hr, by rw [hri, hzi]; rfl⟩
      · rintro ⟨p, hp, hn⟩
        cases p with
        | nil => exact absurd (fits_toInt x) hn
        | cons q p =>
          obtain ⟨rfl, hp'⟩ := List.cons_prefix_cons.1 hp
          exact h2 ⟨p, hp', by rw [hzi]; simpa using hn⟩
    · rw [(h x y).2 hf]
      constructor
      · intro hp
        exact absurd (by simpa using hp [y.toInt] ((List.prefix_cons_inj _).2 (List.nil_prefix))) hf
      · intro _; rfl

theorem fold2_loop (op : Word → Word → Res Word) (x y : Word) (rest : List Val) :
    fold2 op (.num x) (.num y) rest = argLoop op x (.num y :: rest) := rfl

/-- C23, `+`: left fold, exact as long as every partial sum fits, undefined otherwise; all argument lists. -/
theorem C23_add (x : Word) (ys : List Word) :
    FoldsTo (add (.num x :: ys.map .num)) (· + ·) x.toInt (ys.map BitVec.toInt) := by
  have := argLoop_folds (fun x y => C21_add x y) ys x
  cases ys with
  | nil => exact this
  | cons y ys => simpa only [List.map_cons, add, fold2_loop] using this

/-- C23, `*` -/
theorem C23_mul (x : Word) (ys : List Word) :
    FoldsTo (mul (.num x :: ys.map .num)) (· * ·) x.toInt (ys.map BitVec.toInt) := by
  have := argLoop_folds (fun x y => C21_mul x y) ys x
  cases ys with
  | nil => exact this
  | cons y ys => simpa only [List.map_cons, mul, fold2_loop] using this

/-- C23, `-` of two or more numbers -/
theorem C23_sub (x y : Word) (ys : List Word) :
    FoldsTo (sub (.num x :: .num y :: ys.map .num)) (· - ·) x.toInt ((y :: ys).map BitVec.toInt) := by
  have := argLoop_folds (fun x y => C21_sub x y) (y :: ys) x
  simpa only [List.map_cons, sub, fold2_loop] using this

/-- C23, the remaining cases: no argument, and `-` of one number -/
theorem C23_units (x : Word) : add [] = .ok 0#64 ∧ mul [] = .ok 1#64 ∧ sub [] = .err ∧ Exact (sub [.num x]) (-x.toInt) := by
  refine ⟨rfl, rfl, rfl, ?_⟩
  have := C21_sub 0#64 x
  rw [sub]
  simpa using this

theorem argLoop_other (op : Word → Word → Res Word) : ∀ (ys : List Val) (x r : Word), Val.other ∈ ys → argLoop op x ys ≠ .ok r
  | .other :: _, _, _, _ => by simp [argLoop]
  | .num y :: ys, x, r, h => by
    rw [argLoop]
    intro he
    obtain ⟨z, -, he⟩ := Res.bind_eq_ok.1 he
    exact argLoop_other op ys z r (by simpa using h) he

theorem fold2_other (op : Word → Word → Res Word) (x y : Val) (ys : List Val) (r : Word) (h : Val.other ∈ x :: y :: ys) :
    fold2 op x y ys ≠ .ok r := by
  cases x with
  | other => simp [fold2]
  | num x =>
    cases y with
    | other => simp [fold2]
    | num y => rw [fold2_loop]; exact argLoop_other op _ x r (by simpa using h)

/-- C23: an argument that is not a number is never accepted. -/
theorem C23_type_check (args : List Val) (h : Val.other ∈ args) (r : Word) :
    add args ≠ .ok r ∧ sub args ≠ .ok r ∧ mul args ≠ .ok r := by
  match args, h with
  | [.other], _ => simp [add, sub, mul]
  | [.num x], h => simp at h
  | x :: y :: ys, h =>
    refine ⟨?_, ?_, ?_⟩
    · rw [add]; exact fold2_other _ x y ys r h
    · rw [sub]; exact fold2_other _ x y ys r h
    · rw [mul]; exact fold2_other _ x y ys r h

example : add [.num 1#64, .num 2#64, .num (-5#64)] = .ok (-2#64) ∧ sub [.num 1#64, .num 2#64, .num 3#64] = .ok (-4#64) := by
  decide

theorem divLoop_folds : ∀ (ys : List Word) (x : Word), (∀ y ∈ ys, y.toInt ≠ 0) →
    divLoop x (ys.map .num) = argLoop fx2Sub x (ys.map .num)
  | [], _, _ => rfl
  | y :: ys, x, h => by
    have hy : y ≠ 0#64 := by rintro rfl; exact h 0#64 (by simp) rfl
    simp only [List.map_cons, divLoop, argLoop, if_neg hy]
    congr 1
    funext z
    exact divLoop_folds ys z (fun y hy => h y (by simp [hy]))

/-- C23 fails for `/`: with three or more arguments (none of the divisors zero) it subtracts instead of dividing. -/
theorem C23_negated_div (x y z : Word) (ys : List Word) (h : ∀ w ∈ y :: z :: ys, w.toInt ≠ 0) :
    FoldsTo (div (.num x :: .num y :: .num z :: ys.map .num)) (· - ·) x.toInt ((y :: z :: ys).map BitVec.toInt) := by
  have hy : y ≠ 0#64 := by rintro rfl; exact h 0#64 (by simp) rfl
  have := argLoop_folds (fun x y => C21_sub x y) (y :: z :: ys) x
  have e := divLoop_folds (z :: ys)
  simp only [List.map_cons] at e
  rw [div]
  · rw [if_neg hy]
    simp only [List.map_cons, argLoop] at this ⊢
    have : ∀ w, divLoop w (.num z :: ys.map .num) = argLoop fx2Sub w (.num z :: ys.map .num) :=
      fun w => e w (fun v hv => h v (by simp at hv ⊢; tauto))
    simp only [this, argLoop]
    assumption
  · intro h; cases h

/-- a witness: (/ 8 2 2) is 4, not 2 -/
theorem C23_negated_div_witness : div [.num 8#64, .num 2#64, .num 2#64] = .ok 4#64 ∧
    (Int.tdiv (Int.tdiv 8 2) 2 : Int) = 2 := by decide

/-- C23, `/` of one or two numbers: the truncated quotient.  Missing: three or more arguments (`C23_negated_div`). -/
theorem C23_div_partial (x y : Word) (hy : y.toInt ≠ 0) (hm : ¬ (x.toInt = -9223372036854775808 ∧ y.toInt = -1)) :
    (∃ q, div [.num x, .num y] = .ok q ∧ q.toInt = x.toInt.tdiv y.toInt) ∧
    (∃ q, div [.num y] = .ok q ∧ q.toInt = (1 : Int).tdiv y.toInt) := by
  constructor
  · obtain ⟨q, _, hq, -⟩ := C22_defined x y hy hm
    exact ⟨q, hq, by rw [div_two x y hy] at hq; exact (fx2Div_toInt hq).2⟩
  · obtain ⟨q, _, hq, -⟩ := C22_defined 1#64 y hy (by simp)
    have : y ≠ 0#64 := by rintro rfl; exact hy rfl
    rw [div_two _ y hy] at hq
    exact ⟨q, by simpa [div, this] using hq, (fx2Div_toInt hq).2⟩

/-! ## C24 -/

/-- the relation a comparison stands for (specification) -/
def Cmp.rel : Cmp → Int → Int → Prop
  | .eq, x, y => x = y
  | .gt, x, y => x > y
  | .lt, x, y => x < y
  | .ge, x, y => x ≥ y
  | .le, x, y => x ≤ y

theorem Cmp.prim_iff (c : Cmp) (x y : Word) : c.prim x y = true ↔ c.rel x.toInt y.toInt := by
  cases c <;> simp [Cmp.prim, Cmp.rel, fx2Eq, fx2Gt, fx2Lt, fx2Ge, fx2Le, BitVec.slt, BitVec.sle, ← BitVec.toInt_inj]

/-- every adjacent pair is related (specification) -/
def Adjacent (r : Int → Int → Prop) (xs : List Int) : Prop :=
  ∀ (i : Nat) (x y : Int), xs[i]? = some x → xs[i + 1]? = some y → r x y

theorem adjacent_cons {r : Int → Int → Prop} {x y : Int} {xs : List Int} :
    Adjacent r (x :: y :: xs) ↔ r x y ∧ Adjacent r (y :: xs) := by
  constructor
  · intro h
    exact ⟨h 0 x y rfl rfl, fun i a b ha hb => h (i + 1) a b (by simpa using ha) (by simpa using hb)⟩
  · rintro ⟨h1, h2⟩ i a b ha hb
    cases i with
    | zero => simp at ha hb; subst ha; subst hb; exact h1
    | succ i => exact h2 i a b (by simpa using ha) (by simpa using hb)

theorem cmpLoop_spec (c : Cmp) : ∀ (ys : List Word) (x : Word), ∃ b, cmpLoop c.prim x (ys.map .num) = .ok (.bool b) ∧
    (b = true ↔ Adjacent c.rel ((x :: ys).map BitVec.toInt))
  | [], x => ⟨true, rfl, by simp [Adjacent]⟩
  | y :: ys, x => by
    obtain ⟨b, hb, hi⟩ := cmpLoop_spec c ys y
    simp only [List.map_cons, cmpLoop] at hi ⊢
    rw [adjacent_cons, ← Cmp.prim_iff]
    cases hp : c.prim x y with
    | true => exact ⟨b, by simpa using hb, by simp [hi]⟩
    | false => exact ⟨false, by simp, by simp⟩

/-- C24: for two or more numbers the comparisons return a boolean, true exactly when every adjacent pair is related.
Missing: one argument (`C24_negated_single`). -/
theorem C24_chain_partial (c : Cmp) (x y : Word) (ys : List Word) :
    ∃ b, c.run (.num x :: .num y :: ys.map .num) = .ok (.bool b) ∧
      (b = true ↔ Adjacent c.rel ((x :: y :: ys).map BitVec.toInt)) := by
  obtain ⟨b, hb, hi⟩ := cmpLoop_spec c (y :: ys) x
  cases ys with
  | nil =>
    refine ⟨c.prim x y, rfl, ?_⟩
    simp only [List.map_cons, List.map_nil]
    rw [adjacent_cons, Cmp.prim_iff]
    simp [Adjacent]
  | cons z zs => exact ⟨b, hb, hi⟩

/-- C24 fails: with one number every comparison returns that number instead of #t. -/
theorem C24_negated_single (c : Cmp) (x : Word) : c.run [.num x] = .ok (.num x) := rfl

theorem cmpLoop_other (c : Cmp) : ∀ (ys : List Val) (x : Word), Val.other ∈ ys → cmpLoop c.prim x ys = .err ∨
    cmpLoop c.prim x ys = .ok (.bool false)
  | .other :: _, _, _ => Or.inl rfl
  | .num y :: ys, x, h => by
    rw [cmpLoop]
    cases c.prim x y with
    | true => exact cmpLoop_other c ys y (by simpa using h)
    | false => exact Or.inr rfl

/-- C24: with an argument that is not a number the result is an error, or #f decided by earlier arguments; never #t. -/
theorem C24_type_check (c : Cmp) (args : List Val) (h : Val.other ∈ args) : c.run args = .err ∨ c.run args = .ok (.bool false) := by
  match args, h with
  | [.other], _ => exact Or.inl rfl
  | [.num x], h => simp at h
  | [.other, _], _ => exact Or.inl rfl
  | [.num x, .other], _ => exact Or.inl rfl
  | [.num x, .num y], h => simp at h
  | .other :: y :: z :: ys, _ => exact Or.inl rfl
  | .num x :: .num y :: z :: ys, h => exact cmpLoop_other c (.num y :: z :: ys) x (by simpa using h)
  | .num x :: .other :: z :: ys, h => exact cmpLoop_other c (.other :: z :: ys) x (by simp)

/-- C24: the sign predicates decide the sign of every number. -/
theorem C24_sign (x : Word) : negative (.num x) = .ok (.bool (decide (x.toInt < 0))) ∧
    positive (.num x) = .ok (.bool (decide (x.toInt > 0))) ∧
    nonNegative (.num x) = .ok (.bool (decide (x.toInt ≥ 0))) ∧
    zero (.num x) = .ok (.bool (decide (x.toInt = 0))) := by
  have h : ∀ c : Cmp, ∀ p : Prop, [Decidable p] → (c.rel x.toInt (0#64 : Word).toInt ↔ p) →
      c.run [.num x, .num 0#64] = .ok (.bool (decide p)) := by
    intro c p _ hp
    have : c.prim x 0#64 = decide p := by rw [Bool.eq_iff_iff, Cmp.prim_iff, hp]; simp
    simp [Cmp.run, compare, this]
  exact ⟨h .lt _ (by simp [Cmp.rel]), h .gt _ (by simp [Cmp.rel]), h .ge _ (by simp [Cmp.rel]), h .eq _ (by simp [Cmp.rel])⟩

example : Cmp.lt.run [.num (-1#64), .num 2#64, .num 3#64] = .ok (.bool true) ∧
    Cmp.lt.run [.num 2#64, .num 1#64, .other] = .ok (.bool false) ∧ Cmp.lt.run [.num 1#64, .num 2#64, .other] = .err := by
  decide

end Minim.Num
