import Verif.LibReadSpec

set_option autoImplicit false

/-! # The library reader on its grammar (lemmas) -/

namespace Minim.LRd

open Minim.Rd (Dat digitB xdigitB numeral decVal hexVal quoteSym maxFix isOpen isClose matching)

/-! ### bytes -/

theorem delimL_iff : ∀ b : Byte, delimL b = true ↔ b ∈ delims := by decide
theorem delimL_false {b : Byte} (h : b ∉ delims) : delimL b = false := by
  cases e : delimL b with
  | false => rfl
  | true => exact absurd ((delimL_iff b).1 e) h
theorem delim_not_digit : ∀ b : Byte, b ∈ delims → digitB b = false ∧ xdigitB b = false := by decide
theorem digit_facts : ∀ b : Byte, digitB b = true → spaceL b = false ∧ b ≠ 59#8 ∧ b ≠ 35#8 ∧ b ≠ 43#8 ∧ b ≠ 45#8 ∧ isClose b = false ∧ b ≠ 46#8 ∧
    delimL b = false ∧ b ≠ 0#8 := by decide
theorem sym_facts : ∀ b : Byte, b ∉ delims → spaceL b = false ∧ b ≠ 59#8 ∧ isOpen b = false ∧ isClose b = false ∧ b ≠ 34#8 := by decide
theorem open_facts : ∀ o : Byte, o ∈ opens → isOpen o = true ∧ spaceL o = false ∧ o ≠ 59#8 ∧ o ≠ 35#8 ∧ o ≠ 43#8 ∧ o ≠ 45#8 ∧ digitB o = false ∧ o ≠ 34#8 ∧
    isClose o = false ∧ o ≠ 46#8 := by decide
theorem closing_facts : ∀ o : Byte, o ∈ opens → isClose (closing o) = true ∧ matching o (closing o) = true ∧ spaceL (closing o) = false ∧
    closing o ≠ 59#8 ∧ closing o ≠ 46#8 := by decide
theorem xdigit_facts : ∀ b : Byte, xdigitB b = true → hexL b = hexVal b ∧ b ≠ 45#8 ∧ b ≠ 43#8 := by decide

theorem delimP_ok {f : Fol} {r : List Byte} (h : f.ok r) (hf : f ≠ .free) : delimP r = true := by
  cases r with
  | nil => rfl
  | cons b r =>
    refine (delimL_iff b).2 ?_
    cases f with
    | free => exact absurd rfl hf
    | delim => exact h b r rfl
    | inner =>
      obtain ⟨b', r', e, hb⟩ := h
      cases e
      exact hb

/-! ### syntax objects -/

theorem toStx_isStx (w : W) : (toStx w).isStx = true := by cases w <;> simp [toStx, W.isStx]

theorem toStx_stx {w : W} (h : w.isStx = true) : toStx w = w := by
  cases w <;> simp_all [W.isStx, toStx]

theorem datum_stx : ∀ w : W, datum (toStx w) = datum w ∧ datum (tailStx w) = datum w ∧ datum (elemsStx w) = datum w
  | .cons a d => by
    have ha := datum_stx a
    have hd := datum_stx d
    simp [toStx, tailStx, elemsStx, datum, ha, hd]
  | .vec l => by
    have hl := datum_stx l
    simp [toStx, tailStx, elemsStx, datum, hl]
  | .box d => by
    have hl := datum_stx d
    simp [toStx, tailStx, elemsStx, datum, hl]
  | .stx e => by simp [toStx, tailStx, elemsStx, datum]
  | .null => by simp [toStx, tailStx, elemsStx, datum]
  | .bool b => by simp [toStx, tailStx, elemsStx, datum]
  | .fix z => by simp [toStx, tailStx, elemsStx, datum]
  | .char b => by simp [toStx, tailStx, elemsStx, datum]
  | .sym s => by simp [toStx, tailStx, elemsStx, datum]
  | .str s => by simp [toStx, tailStx, elemsStx, datum]
  | .eof => by simp [toStx, tailStx, elemsStx, datum]

theorem datum_toStx (w : W) : datum (toStx w) = datum w := (datum_stx w).1

/-! ### white space -/

theorem skip_line (body inp : List Byte) (h : 10#8 ∉ body) : skipL true (body ++ 10#8 :: inp) = skipL false inp := by
  induction body with
  | nil => simp [skipL]
  | cons b body ih =>
    have h1 : b ≠ 10#8 := fun e => h (by simp [e])
    rw [List.cons_append, skipL, if_neg h1, ih (fun e => h (by simp [e]))]

theorem skip_eof (body : List Byte) (h : 10#8 ∉ body) : skipL true body = [] := by
  induction body with
  | nil => simp [skipL]
  | cons b body ih =>
    have h1 : b ≠ 10#8 := fun e => h (by simp [e])
    rw [skipL, if_neg h1, ih (fun e => h (by simp [e]))]

theorem skip_ws {w : List Byte} (h : Ws w) (inp : List Byte) : skipL false (w ++ inp) = skipL false inp := by
  cases h with
  | space => rfl
  | newline => rfl
  | line body hb =>
    have : spaceL 59#8 = false := by decide
    rw [List.cons_append, skipL, this]
    simp only [Bool.false_eq_true, if_false, if_true, List.append_assoc, List.singleton_append]
    exact skip_line body inp hb

theorem skip_end {r : List Byte} (h : End r) : skipL false r = [] := by
  induction h with
  | nil => rfl
  | ws hw _ ih => rw [skip_ws hw, ih]
  | line body hb =>
    have : spaceL 59#8 = false := by decide
    rw [skipL, this]
    simp only [Bool.false_eq_true, if_false, if_true]
    exact skip_eof body hb

theorem skip_stop {b : Byte} (h1 : spaceL b = false) (h2 : b ≠ 59#8) (r : List Byte) : skipL false (b :: r) = b :: r := by
  rw [skipL, h1]; simp [h2]

theorem skip_idem : ∀ (f : Bool) (inp : List Byte), skipL false (skipL f inp) = skipL f inp
  | _, [] => by cases ‹Bool› <;> rfl
  | false, b :: r => by
    rw [skipL]
    split
    · exact skip_idem false r
    · split
      · exact skip_idem true r
      · rw [skip_stop (by simpa using ‹¬ spaceL b = true›) ‹_›]
  | true, b :: r => by
    rw [skipL]
    split
    · exact skip_idem false r
    · exact skip_idem true r

theorem rd_skip (n : Nat) (inp : List Byte) : rd n (skipL false inp) = rd n inp := by
  cases n with
  | zero => rfl
  | succ n => rw [rd, rd, skip_idem]

theorem rdPair_skip (n : Nat) (o : Byte) (inp : List Byte) : rdPair n o (skipL false inp) = rdPair n o inp := by
  cases n with
  | zero => rfl
  | succ n => rw [rdPair, rdPair, skip_idem]

/-! ### block comments -/

theorem block_byte {b : Byte} (h1 : b ≠ 35#8) (h2 : b ≠ 124#8) (n l : Nat) (r : List Byte) :
    blockL (n + 1) (l + 1) (b :: r) = blockL n (l + 1) r := by
  rw [blockL.eq_def]; simp only [h1, h2, if_false]

theorem block_hash (b : Byte) (n l : Nat) (r : List Byte) :
    blockL (n + 1) (l + 1) (35#8 :: b :: r) = if b = 124#8 then blockL n (l + 2) r else blockL n (l + 1) (b :: r) := by
  rw [blockL.eq_def]; simp only [if_true]

theorem block_bar (b : Byte) (n l : Nat) (r : List Byte) :
    blockL (n + 1) (l + 1) (124#8 :: b :: r) = if b = 35#8 then blockL n l r else blockL n (l + 1) (b :: r) := by
  rw [blockL.eq_def]; simp only [if_true, if_neg (show ¬ (124#8 : Byte) = 35#8 by decide)]

/-- the inside of a comment followed by the end of the comment is skipped up to that end -/
theorem blockL_blk {body : List Byte} (h : Blk body) : ∃ k, ∀ (n l : Nat) (inp : List Byte),
    blockL (k + n) (l + 1) (body ++ (124#8 :: 35#8 :: inp)) = blockL n l inp := by
  induction h with
  | nil => exact ⟨1, fun n l inp => by rw [List.nil_append, Nat.add_comm, block_bar, if_pos rfl]⟩
  | byte h1 h2 _ ih =>
    obtain ⟨k, hk⟩ := ih
    exact ⟨k + 1, fun n l inp => by rw [List.cons_append, show k + 1 + n = (k + n) + 1 by omega, block_byte h1 h2, hk]⟩
  | hash h1 _ ih =>
    obtain ⟨k, hk⟩ := ih
    refine ⟨k + 1, fun n l inp => ?_⟩
    rw [List.cons_append, List.cons_append, show k + 1 + n = (k + n) + 1 by omega, block_hash, if_neg h1]
    exact hk n l inp
  | bar h1 _ ih =>
    obtain ⟨k, hk⟩ := ih
    refine ⟨k + 1, fun n l inp => ?_⟩
    rw [List.cons_append, List.cons_append, show k + 1 + n = (k + n) + 1 by omega, block_bar, if_neg h1]
    exact hk n l inp
  | last =>
    refine ⟨2, fun n l inp => ?_⟩
    rw [List.singleton_append, show 2 + n = (n + 1) + 1 by omega, block_bar, if_neg (by decide), block_bar, if_pos rfl]
  | nest _ _ ih1 ih2 =>
    obtain ⟨k1, h1⟩ := ih1
    obtain ⟨k2, h2⟩ := ih2
    refine ⟨k1 + k2 + 1, fun n l inp => ?_⟩
    rw [List.cons_append, List.cons_append, List.append_assoc, show k1 + k2 + 1 + n = (k1 + (k2 + n)) + 1 by omega, block_hash, if_pos rfl,
      List.cons_append, List.cons_append, h1, h2]

theorem blockL_end {body : List Byte} (h : Blk body) (inp : List Byte) :
    ∃ N, ∀ n, N ≤ n → blockL n 1 (body ++ (124#8 :: 35#8 :: inp)) = .ok inp := by
  obtain ⟨k, hk⟩ := blockL_blk h
  refine ⟨k + 1, fun n hn => ?_⟩
  obtain ⟨m, rfl⟩ : ∃ m, n = k + (m + 1) := ⟨n - k - 1, by omega⟩
  rw [hk, blockL]

/-! ### atoms -/

theorem cstr_eq_self {s : List Byte} (h : ∀ b ∈ s, b ≠ 0#8) : cstr s = s := by
  induction s with
  | nil => rfl
  | cons b s ih =>
    have hb := h b (by simp)
    have := ih (fun b hb => h b (by simp [hb]))
    simp_all [cstr]

theorem symL_ok : ∀ (s acc inp : List Byte), (∀ b ∈ s, SymChar b) → delimP inp = true →
    symL acc (s ++ inp) = (.sym (cstr (acc.reverse ++ s)), inp) := by
  intro s
  induction s with
  | nil =>
    intro acc inp _ hd
    cases inp with
    | nil => simp [symL]
    | cons b r =>
      have : delimL b = true := hd
      rw [List.nil_append, symL, this, List.append_nil]; simp
  | cons b s ih =>
    intro acc inp hs hd
    rw [List.cons_append, symL, delimL_false (hs b (by simp)).1]
    simp only [Bool.false_eq_true, if_false]
    rw [ih _ _ (fun b hb => hs b (by simp [hb])) hd]
    simp

theorem foldl_ge (base : Nat) (val : Byte → Nat) (hb : 1 ≤ base) : ∀ (ds : List Byte) (acc : Nat), acc ≤ ds.foldl (fun acc b => acc * base + val b) acc :=
  Rd.foldl_ge base val hb

/-- the loop reading a decimal number over its digits -/
theorem numL_digits : ∀ (ds acc : List Byte) (num : Nat) (inp : List Byte), (∀ b ∈ ds, digitB b = true) →
    ds.foldl (fun acc b => acc * 10 + decVal b) num < 2 ^ 63 →
    numL acc num (ds ++ inp) = numL (ds.reverse ++ acc) (ds.foldl (fun acc b => acc * 10 + decVal b) num) inp := by
  intro ds
  induction ds with
  | nil => intro acc num inp _ _; rfl
  | cons d ds ih =>
    intro acc num inp hd hlt
    rw [List.foldl_cons] at hlt ⊢
    have h1 := foldl_ge 10 decVal (by omega) ds (num * 10 + decVal d)
    have h2 : 10 * num + (d.toNat - 48) = num * 10 + decVal d := by rw [decVal]; omega
    rw [List.cons_append, numL, if_pos (hd d (by simp)), h2, if_neg (by unfold maxFix; omega), ih _ _ _ (fun b hb => hd b (by simp [hb])) hlt]
    simp

theorem numL_ok {ds inp : List Byte} (h : Digits 10 digitB decVal ds) (hf : Fol.inner.ok inp) :
    numL [] 0 (ds ++ inp) = .ok (.fix (numeral 10 decVal ds), inp) := by
  obtain ⟨b, r, rfl, hb⟩ := hf
  rw [numL_digits ds [] 0 _ h.2.1 h.2.2, numL, (delim_not_digit b hb).1, (delimL_iff b).2 hb]
  rfl

theorem numL_sym {ds s inp : List Byte} {c : Byte} (h : Digits 10 digitB decVal ds) (hc : digitB c = false) (hs : SymChar c)
    (hss : ∀ b ∈ s, SymChar b) (hf : Fol.delim.ok inp) :
    numL [] 0 (ds ++ (c :: (s ++ inp))) = .ok (.sym (ds ++ c :: s), inp) := by
  rw [numL_digits ds [] 0 _ h.2.1 h.2.2, numL, hc, delimL_false hs.1]
  simp only [Bool.false_eq_true, if_false, Bool.not_false, if_true]
  rw [symL_ok _ _ _ hss (delimP_ok hf (by simp)), cstr_eq_self]
  · simp
  · intro b hb
    simp only [List.append_nil, List.reverse_cons, List.reverse_reverse, List.append_assoc, List.singleton_append, List.mem_append, List.mem_cons] at hb
    rcases hb with hb | rfl | hb
    · exact (digit_facts b (h.2.1 b hb)).2.2.2.2.2.2.2.2
    · exact hs.2
    · exact (hss b hb).2

theorem hexLoop_digits (sign : Int) : ∀ (ds acc : List Byte) (num : Nat) (inp : List Byte), (∀ b ∈ ds, xdigitB b = true) →
    ds.foldl (fun acc b => acc * 16 + hexVal b) num < 2 ^ 63 →
    hexLoop sign acc num (ds ++ inp) = hexLoop sign (ds.reverse ++ acc) (ds.foldl (fun acc b => acc * 16 + hexVal b) num) inp := by
  intro ds
  induction ds with
  | nil => intro acc num inp _ _; rfl
  | cons d ds ih =>
    intro acc num inp hd hlt
    rw [List.foldl_cons] at hlt ⊢
    have hd0 := hd d (by simp)
    have h1 := foldl_ge 16 hexVal (by omega) ds (num * 16 + hexVal d)
    have h2 : 16 * num + hexL d = num * 16 + hexVal d := by rw [(xdigit_facts d hd0).1]; omega
    rw [List.cons_append, hexLoop, if_pos hd0, h2, if_neg (by unfold maxFix; omega), ih _ _ _ (fun b hb => hd b (by simp [hb])) hlt]
    simp

theorem hexLoop_ok {ds inp : List Byte} (sign : Int) (acc : List Byte) (h : Digits 16 xdigitB hexVal ds) (hf : Fol.inner.ok inp) :
    hexLoop sign acc 0 (ds ++ inp) = .ok (.fix (numeral 16 hexVal ds * sign), inp) := by
  obtain ⟨b, r, rfl, hb⟩ := hf
  rw [hexLoop_digits sign ds acc 0 _ h.2.1 h.2.2, hexLoop, (delim_not_digit b hb).2, (delimL_iff b).2 hb]
  rfl

theorem strL_ok {ps bs : List Byte} (h : Pieces ps bs) : ∀ (acc inp : List Byte), strL acc (ps ++ (34#8 :: inp)) = .ok (acc.reverse ++ bs, inp) := by
  induction h with
  | nil => intro acc inp; rw [List.nil_append, strL.eq_def]; simp
  | cons hp _ ih =>
    intro acc inp
    rw [List.append_assoc]
    cases hp with
    | plain b h1 h2 h3 =>
      rw [List.singleton_append, strL.eq_def]
      simp only
      rw [if_neg h2, if_neg h1, ih]; simp
    | nl => rw [List.cons_append, List.cons_append, strL.eq_def]; simp only [if_true]; rw [List.nil_append, ih]; simp
    | bs => rw [List.cons_append, List.cons_append, strL.eq_def]; simp only [if_true]; rw [if_neg (by decide), List.nil_append, ih]; simp
    | dq =>
      rw [List.cons_append, List.cons_append, strL.eq_def]; simp only [if_true]
      rw [if_neg (by decide), if_neg (by decide), List.nil_append, ih]; simp

theorem pieces_ne_zero {ps bs : List Byte} (h : Pieces ps bs) : ∀ b ∈ bs, b ≠ 0#8 := by
  induction h with
  | nil => simp
  | cons hp _ ih =>
    intro x hx
    rcases List.mem_cons.1 hx with rfl | hx
    · cases hp <;> first | assumption | decide
    · exact ih x hx

theorem plainChar_ok {b : Byte} {inp : List Byte} (hf : Fol.delim.ok inp) : charL (b :: inp) = .ok (b, inp) := by
  have hd := delimP_ok hf (by simp)
  have h1 : plainChar b inp = .ok (b, inp) := by rw [plainChar, if_pos hd]
  have h2 : ∀ c : Byte, delimL c = false → inp.head? ≠ some c := by
    intro c hc e
    cases inp with
    | nil => cases e
    | cons x r => cases e; rw [delimP, hc] at hd; cases hd
  rw [charL, if_neg (h2 112#8 (by decide)), if_neg (h2 101#8 (by decide)), h1]
  simp

theorem rd_hash (n : Nat) (r : List Byte) : rd (n + 1) (35#8 :: r) = rdHash n r := by
  rw [rd, skip_stop (by decide) (by decide)]; rfl

theorem rd_sym {b : Byte} {r : List Byte} (n : Nat) (h : SymChar b) (hd : digitB b = false) (hq : b ≠ 39#8) (hh : b ≠ 35#8) (hp : b ≠ 43#8) (hm : b ≠ 45#8) :
    rd (n + 1) (b :: r) = .ok (toStx (symL [] (b :: r)).1, (symL [] (b :: r)).2) := by
  have hf := sym_facts b h.1
  rw [rd, skip_stop hf.1 hf.2.1]
  simp only
  rw [if_neg hh, if_neg (by simp [hp, hm]), hd, if_neg (by simp), if_neg hf.2.2.2.2, hf.2.2.1, if_neg (by simp), if_neg hq, delimL_false h.1]
  rfl

theorem rd_sign {s : Byte} {r : List Byte} (n : Nat) (h : s = 43#8 ∨ s = 45#8) : rd (n + 1) (s :: r) = signL s r := by
  rcases h with rfl | rfl
  · rw [rd, skip_stop (by decide) (by decide)]; rfl
  · rw [rd, skip_stop (by decide) (by decide)]; rfl

theorem rd_digit {b : Byte} {r : List Byte} (n : Nat) (h : digitB b = true) :
    rd (n + 1) (b :: r) = (numL [] 0 (b :: r) >>= fun q => pure (toStx q.1, q.2)) := by
  have hf := digit_facts b h
  rw [rd, skip_stop hf.1 hf.2.1]
  simp only
  rw [if_neg hf.2.2.1, if_neg (by simp [hf.2.2.2.1, hf.2.2.2.2.1]), h, if_pos rfl]

theorem signL_num {s : Byte} {ds inp : List Byte} (h : Digits 10 digitB decVal ds) (hf : Fol.inner.ok inp) :
    signL s (ds ++ inp) = .ok (.stx (.fix (if s = 45#8 then -(numeral 10 decVal ds : Int) else numeral 10 decVal ds)), inp) := by
  have hne := h.1
  have hn := numL_ok h hf
  obtain ⟨b, r, rfl⟩ := List.exists_cons_of_ne_nil hne
  have : digitP (b :: r ++ inp) = .ok true := by rw [List.cons_append, digitP, h.2.1 b (by simp)]
  rw [signL, this, Res.ok_bind, if_pos rfl, hn, Res.ok_bind]
  by_cases hs : s = 45#8
  · rw [if_pos hs, if_pos hs]; rfl
  · rw [if_neg hs, if_neg hs]; rfl

/-- an atom is read as the datum it denotes -/
theorem read_atom {s : List Byte} {d : Dat} {f : Fol} (h : Atom s d f) {inp : List Byte} (hf : f.ok inp) :
    ∃ w, w.isStx = true ∧ datum w = d ∧ ∀ n, rd (n + 2) (s ++ inp) = .ok (w, inp) := by
  cases h with
  | tru => exact ⟨.stx (.bool true), rfl, rfl, fun n => by rw [List.cons_append, rd_hash]; rfl⟩
  | fls => exact ⟨.stx (.bool false), rfl, rfl, fun n => by rw [List.cons_append, rd_hash]; rfl⟩
  | dec ds hd =>
    refine ⟨.stx (.fix (numeral 10 decVal s)), rfl, rfl, fun n => ?_⟩
    have hn := numL_ok hd hf
    have hne := hd.1
    obtain ⟨b, r, rfl⟩ := List.exists_cons_of_ne_nil hne
    rw [List.cons_append] at hn ⊢
    rw [rd_digit _ (hd.2.1 b (by simp)), hn]; rfl
  | neg ds hd => exact ⟨_, rfl, rfl, fun n => by rw [List.cons_append, rd_sign _ (Or.inr rfl), signL_num hd hf]⟩
  | pos ds hd => exact ⟨_, rfl, rfl, fun n => by rw [List.cons_append, rd_sign _ (Or.inl rfl), signL_num hd hf]⟩
  | hex ds hd =>
    have hh := hexLoop_ok 1 [] hd hf
    refine ⟨.stx (.fix (numeral 16 hexVal ds * 1)), rfl, by simp [datum], fun n => ?_⟩
    have hne := hd.1
    obtain ⟨b, r, rfl⟩ := List.exists_cons_of_ne_nil hne
    have hb := xdigit_facts b (hd.2.1 b (by simp))
    rw [List.cons_append, List.cons_append, rd_hash, rdHash, if_neg (by decide), if_neg (by decide), if_neg (by decide), if_neg (by decide),
      if_neg (by decide), if_neg (by decide), if_pos rfl]
    rw [List.cons_append] at hh ⊢
    rw [hexNum, if_neg hb.2.1, if_neg hb.2.2, hh]; rfl
  | hneg ds hd =>
    have hh := hexLoop_ok (-1) [45#8] hd hf
    refine ⟨.stx (.fix (numeral 16 hexVal ds * (-1))), rfl, by simp [datum], fun n => ?_⟩
    rw [List.cons_append, List.cons_append, List.cons_append, rd_hash, rdHash, if_neg (by decide), if_neg (by decide), if_neg (by decide), if_neg (by decide),
      if_neg (by decide), if_neg (by decide), if_pos rfl, hexNum, if_pos rfl, hh]; rfl
  | hpos ds hd =>
    have hh := hexLoop_ok 1 [43#8] hd hf
    refine ⟨.stx (.fix (numeral 16 hexVal ds * 1)), rfl, by simp [datum], fun n => ?_⟩
    rw [List.cons_append, List.cons_append, List.cons_append, rd_hash, rdHash, if_neg (by decide), if_neg (by decide), if_neg (by decide), if_neg (by decide),
      if_neg (by decide), if_neg (by decide), if_pos rfl, hexNum, if_neg (by decide), if_pos rfl, hh]; rfl
  | sym s hs hp hm =>
    obtain ⟨_, hall, hfirst⟩ := hs
    have hd := delimP_ok hf (by simp)
    refine ⟨.stx (.sym s), rfl, rfl, fun n => ?_⟩
    cases s with
    | nil => exact hfirst.elim
    | cons b r =>
      obtain ⟨hdg, hq, hh, hsgn⟩ := hfirst
      by_cases hb : b = 43#8 ∨ b = 45#8
      · cases r with
        | nil => rcases hb with rfl | rfl <;> simp_all
        | cons c r =>
          rw [List.cons_append, rd_sign _ hb, signL, List.cons_append, digitP, hsgn hb c r rfl, Res.ok_bind]
          simp only [Bool.false_eq_true, if_false]
          rw [show c :: (r ++ inp) = (c :: r) ++ inp from rfl, symL_ok _ _ _ (fun b hb => hall b (by simp at hb ⊢; tauto)) hd,
            cstr_eq_self (fun x hx => (hall x (by simpa using hx)).2)]
          rfl
      · have h1 := symL_ok (b :: r) [] inp hall hd
        rw [List.cons_append] at h1 ⊢
        rw [rd_sym _ (hall b (by simp)) hdg hq hh (fun e => hb (Or.inl e)) (fun e => hb (Or.inr e)), h1,
          cstr_eq_self (fun x hx => (hall x (by simpa using hx)).2)]
        rfl
  | plus =>
    obtain ⟨b, r, rfl, hb⟩ := hf
    refine ⟨.stx (.sym [43#8]), rfl, rfl, fun n => ?_⟩
    rw [List.singleton_append, rd_sign _ (Or.inl rfl), signL, digitP, (delim_not_digit b hb).1, Res.ok_bind, if_neg (by simp), symL, (delimL_iff b).2 hb]
    rfl
  | minus =>
    obtain ⟨b, r, rfl, hb⟩ := hf
    refine ⟨.stx (.sym [45#8]), rfl, rfl, fun n => ?_⟩
    rw [List.singleton_append, rd_sign _ (Or.inr rfl), signL, digitP, (delim_not_digit b hb).1, Res.ok_bind, if_neg (by simp), symL, (delimL_iff b).2 hb]
    rfl
  | nsym ds c s hd hc hs hss =>
    refine ⟨.stx (.sym (ds ++ c :: s)), rfl, rfl, fun n => ?_⟩
    have hn := numL_sym hd hc hs hss hf
    have hne := hd.1
    obtain ⟨b, r, rfl⟩ := List.exists_cons_of_ne_nil hne
    rw [List.append_assoc, List.cons_append (a := c)]
    rw [List.cons_append] at hn ⊢
    rw [rd_digit _ (hd.2.1 b (by simp)), hn]; rfl
  | space => exact ⟨.stx (.char 32#8), rfl, rfl, fun n => by rw [List.cons_append, rd_hash]; rfl⟩
  | newline => exact ⟨.stx (.char 10#8), rfl, rfl, fun n => by rw [List.cons_append, rd_hash]; rfl⟩
  | char b =>
    refine ⟨.stx (.char b), rfl, rfl, fun n => ?_⟩
    rw [List.cons_append, rd_hash, List.cons_append, List.singleton_append, rdHash, if_neg (by decide), if_neg (by decide), if_pos rfl, plainChar_ok hf]
    rfl
  | str ps bs hp =>
    refine ⟨.stx (.str bs), rfl, rfl, fun n => ?_⟩
    rw [List.append_assoc, List.singleton_append, rd, skip_stop (by decide) (by decide)]
    simp only
    rw [if_neg (by decide), if_neg (by decide), if_neg (by decide), if_pos trivial, stringL, List.append_assoc, List.singleton_append, strL_ok hp, Res.ok_bind]
    simp only
    rw [if_pos (delimP_ok hf (by simp)), List.reverse_nil, List.nil_append, cstr_eq_self (pieces_ne_zero hp)]
    rfl

end Minim.LRd
