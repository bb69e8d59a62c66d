import Verif.ReaderPrint
import Verif.ReaderSafe

set_option autoImplicit false

/-!
# Properties of the reader and the printers (C36-C40)

`Ev f q`: for every sufficiently large amount of fuel `f` returns `q`; by `C39_fuel` the outcome does not depend on the fuel.
-/

namespace Minim.Rd

/-! ### C36: what is written is read back -/

/-- C36 for `write` and `put-datum` of the prelude, except for the data excluded by `Readable` (see the negations below): whatever
delimiter follows, reading what `write` printed gives the datum and stops right behind it. -/
theorem C36_partial (d : Dat) (h : Readable wrStrChar false d) (rest : List Byte) (hr : DelimStart rest) :
    Ev (fun n => readObj n (wr false d ++ rest)) (d, rest) := by
  rw [wr_canon d h]; exact canon_read h hr

-- (a "q\"\\" . #(-5 #\space)) followed by a space
example : let d : Dat := .cons (.sym [97#8]) (.cons (.str [113#8, 34#8, 92#8]) (.vec (.cons (.fix (-5)) (.cons (.char 32#8) .null))))
    Readable wrStrChar false d ∧ DelimStart [32#8, 120#8] := by
  refine ⟨?_, (by decide : delimB 32#8 = true)⟩
  simp only [Readable, ReadableElems]
  refine ⟨⟨by decide, by decide, by decide, by decide, by decide, fun h => absurd h (by decide), fun h => absurd h (by decide)⟩, ⟨?_, by decide⟩, ⟨⟨by decide, by decide⟩, by decide, trivial⟩, Or.inr (by decide)⟩
  intro b hb
  simp only [List.mem_cons, List.not_mem_nil, or_false] at hb
  rcases hb with rfl | rfl | rfl
  · exact Piece.plain _ (by decide) (by decide) (by decide) (by decide)
  · exact Piece.dq
  · exact Piece.bs

/-- C36 for the printer of the C runtime (`write_object`), which prints boxes and empty vectors but does not escape strings. -/
theorem C36_partial_c (d : Dat) (h : Readable asIs true d) (rest : List Byte) (hr : DelimStart rest) :
    Ev (fun n => readObj n (cw d ++ rest)) (d, rest) := by
  rw [cw_canon d h]; exact canon_read h hr

-- #(#&#\a) . #()  as the pair (#(#&#\a) . #())
example : Readable asIs true (.cons (.vec (.cons (.box (.char 97#8)) .null)) (.vec .null)) ∧ DelimStart [] := by
  refine ⟨?_, trivial⟩
  simp only [Readable, ReadableElems]
  exact ⟨⟨⟨⟨trivial, by decide⟩, trivial⟩, Or.inl trivial⟩, trivial, Or.inl trivial⟩

/-- which strings are written readably: those without NUL, 0xFF and the characters alarm, backspace, vertical tab, page, return -/
theorem C36_strings (b : Byte) : Piece (wrStrChar b) b ↔ b ∉ [0#8, 7#8, 8#8, 11#8, 12#8, 13#8, 255#8] := by
  constructor
  · intro h hb
    have : ∀ b : Byte, b ∈ [7#8, 8#8, 11#8, 12#8, 13#8] → (wrStrChar b).length = 2 ∧ (wrStrChar b) ≠ [92#8, 110#8] ∧ (wrStrChar b) ≠ [92#8, 116#8] ∧
      (wrStrChar b) ≠ [92#8, 92#8] ∧ (wrStrChar b) ≠ [92#8, 39#8] ∧ (wrStrChar b) ≠ [92#8, 34#8] := by decide
    have h0 := piece_ne_zero h
    by_cases hm : b ∈ [7#8, 8#8, 11#8, 12#8, 13#8]
    · obtain ⟨h1, h2, h3, h4, h5, h6⟩ := this b hm
      generalize hw : wrStrChar b = w at h h1 h2 h3 h4 h5 h6
      cases h with
      | plain => simp at h1
      | nl => exact h2 rfl
      | tab => exact h3 rfl
      | bs => exact h4 rfl
      | sq => exact h5 rfl
      | dq => exact h6 rfl
    · have h255 : b = 255#8 := by
        simp only [List.mem_cons, List.not_mem_nil, or_false, not_or] at hb hm
        rcases hb with rfl | rfl | rfl | rfl | rfl | rfl | rfl
        · exact absurd rfl h0
        · exact absurd rfl hm.1
        · exact absurd rfl hm.2.1
        · exact absurd rfl hm.2.2.1
        · exact absurd rfl hm.2.2.2.1
        · exact absurd rfl hm.2.2.2.2
        · rfl
      subst h255
      have hw : wrStrChar 255#8 = [255#8] := by decide
      rw [hw] at h
      generalize hb : 255#8 = b, hp : [255#8] = p at h
      cases h with
      | plain _ _ _ h3 => exact h3 hb.symm
      | _ => exact absurd hb (by decide)
  · have : ∀ b : Byte, b ∉ [0#8, 7#8, 8#8, 11#8, 12#8, 13#8, 255#8] → (wrStrChar b = [b] ∧ b ≠ 34#8 ∧ b ≠ 92#8 ∧ b ≠ 255#8 ∧ b ≠ 0#8) ∨
      (wrStrChar b = [92#8, 110#8] ∧ b = 10#8) ∨ (wrStrChar b = [92#8, 116#8] ∧ b = 9#8) ∨ (wrStrChar b = [92#8, 92#8] ∧ b = 92#8) ∨
      (wrStrChar b = [92#8, 34#8] ∧ b = 34#8) := by decide +kernel
    intro h
    rcases this b h with ⟨e, h1, h2, h3, h4⟩ | ⟨e, rfl⟩ | ⟨e, rfl⟩ | ⟨e, rfl⟩ | ⟨e, rfl⟩ <;> rw [e]
    · exact Piece.plain b h1 h2 h3 h4
    · exact Piece.nl
    · exact Piece.tab
    · exact Piece.bs
    · exact Piece.dq

/-- Negation of C36: every string containing one of the characters alarm, backspace, vertical tab, page and return (the first of them
preceded by readable ones) is written with an escape that the reader rejects. -/
theorem C36_negated_string (pre post : List Byte) (b : Byte) (hpre : ∀ x ∈ pre, Piece (wrStrChar x) x) (hb : b ∈ [7#8, 8#8, 11#8, 12#8, 13#8])
    (rest : List Byte) (n : Nat) : readObj (n + 1) (wr false (.str (pre ++ b :: post)) ++ rest) = .err := by
  have : ∀ b : Byte, b ∈ [7#8, 8#8, 11#8, 12#8, 13#8] → wrStrChar b = 92#8 :: (wrStrChar b).tail ∧ (wrStrChar b).tail = [(wrStrChar b).tail.headD 0#8] ∧
      escape (chr (some ((wrStrChar b).tail.headD 0#8))) = .err := by decide
  obtain ⟨h1, h2, h3⟩ := this b hb
  rw [wr]
  simp only [Bool.false_eq_true, if_false, List.flatMap_append, List.flatMap_cons]
  rw [h1, h2]
  simp only [List.cons_append, List.nil_append, List.append_assoc]
  rw [readObj_atom (by decide) (by decide) (by decide) (by decide) (by decide) (by decide), readAtom, ctype_ok (by decide), Res.ok_bind, if_neg (by simp [digitB]), if_pos rfl]
  exact strLoop_bad (pieces_flatMap hpre) _ h3 _ _

example : ∀ x ∈ [97#8], Piece (wrStrChar x) x := by
  intro x hx
  simp only [List.mem_singleton] at hx
  subst hx
  exact Piece.plain _ (by decide) (by decide) (by decide) (by decide)

/-- Negation of C36: the empty vector is written as `#)`, which is no datum. -/
theorem C36_negated_vector (rest : List Byte) (n : Nat) : wr false (.vec .null) = [35#8, 41#8] ∧ readObj (n + 2) (wr false (.vec .null) ++ rest) = .err := by
  have e : wr false (.vec .null) = [35#8, 41#8] := by simp [wr, wrElems]
  rw [e]
  exact ⟨rfl, rfl⟩

/-- Negation of C36: the smallest fixnum is written with digits whose value the reader cannot compute without overflow. -/
theorem C36_negated_fixnum (rest : List Byte) (n : Nat) : readObj (n + 1) (wr false (.fix (-2 ^ 63)) ++ rest) = .ub := by
  have hd : Str.decimal (-2 ^ 63) = 45#8 :: Str.natDigits (2 ^ 63) := by
    unfold Str.decimal
    rw [if_pos (by decide)]; rfl
  have hne := Str.natDigits_ne_nil (2 ^ 63)
  have hdig : ∀ b ∈ Str.natDigits (2 ^ 63), digitB b = true := fun b hb => by
    obtain ⟨d, hd, rfl⟩ := Str.natDigits_range _ b hb
    have : ∀ d : Fin 10, digitB (BitVec.ofNat 8 (48 + d)) = true := by decide
    exact this ⟨d, hd⟩
  have hval := numeral_natDigits (2 ^ 63)
  rw [wr, hd, List.cons_append]
  obtain ⟨x, r, e⟩ := List.exists_cons_of_ne_nil hne
  rw [readObj_num n (Or.inr ⟨Or.inl rfl, x, r ++ rest, by rw [e]; rfl, hdig x (by rw [e]; simp)⟩), readNum, if_pos rfl, poke, if_neg (by simp [maxLen]), Res.ok_bind]
  simp only [true_or, if_true]
  rw [digLoop_over 10 digitB _ decVal dec_params.1 _ _ 0 rest hdig (by decide) (by unfold numeral at hval; rw [hval])]
  rfl

/-- Negation of C36 (other data): `write` prints boxes as `#<garbage>`, which the reader rejects, and the character 0xFF as a text that the
reader takes for the end of the input. -/
theorem C36_negated_other (rest : List Byte) (d : Dat) (n : Nat) : readObj (n + 2) (wr false (.box d) ++ rest) = .err ∧
    readObj (n + 2) (wr false (.char 255#8) ++ rest) = .err := by
  constructor
  · rw [wr]; rfl
  · rw [wr]; rfl

/-- Negation of C36 for the C printer: it does not escape, so a string with a quotation mark is read back as a shorter string. -/
theorem C36_negated_c (pre post : List Byte) (hpre : ∀ x ∈ pre, Piece (asIs x) x) (hl : pre.length < 4096) (rest : List Byte) :
    Ev (fun n => readObj n (cw (.str (pre ++ 34#8 :: post)) ++ rest)) (.str pre, post ++ 34#8 :: rest) ∧ pre ≠ pre ++ 34#8 :: post := by
  refine ⟨?_, fun h => ?_⟩
  · have ha := atom_str (esc := asIs) ⟨hpre, hl⟩
    refine ⟨2, fun n hn => ?_⟩
    obtain ⟨k, rfl⟩ : ∃ k, n = k + 2 := ⟨n - 2, by omega⟩
    have := read_atom ha (inp := post ++ 34#8 :: rest) (Or.inl rfl) k
    rw [flatMap_asIs] at this
    simp only [cw]
    simpa using this
  · have := congrArg List.length h
    simp only [List.length_append, List.length_cons] at this
    omega

example : ∀ x ∈ [97#8, 98#8], Piece (asIs x) x := by
  intro x hx
  simp only [List.mem_cons, List.not_mem_nil, or_false] at hx
  rcases hx with rfl | rfl <;> exact Piece.plain _ (by decide) (by decide) (by decide) (by decide)

/-! ### C37: comments and white space are transparent -/

/-- C37, except in front of closing parentheses and dots: every layout of the tokens of a datum is read as the datum. -/
theorem C37_partial (ts : List Tok) (d : Dat) (hd : Den .obj ts d) (inp inp' rest : List Byte) (hl : Lay ts inp rest) (hl' : Lay ts inp' rest) :
    Ev (fun n => readObj n inp) (d, rest) ∧ Ev (fun n => readObj n inp') (d, rest) := by
  have key : ∀ inp, Lay ts inp rest → Ev (fun n => readObj n inp) (d, rest) := by
    intro inp hl
    obtain ⟨r, h1, h2⟩ := read_layout (us := []) hd (by simpa using hl)
    cases h1
    exact h2
  exact ⟨key inp hl, key inp' hl'⟩

-- (a) and  ;x⏎( #|b|#a )
example : let ts : List Tok := [.opn 40#8, .atom [97#8] (.sym [97#8]) false, .cls 41#8]
    Den .obj ts (.cons (.sym [97#8]) .null) ∧ Lay ts [40#8, 97#8, 41#8] [] ∧
    Lay ts [59#8, 120#8, 10#8, 40#8, 32#8, 35#8, 124#8, 98#8, 124#8, 35#8, 97#8, 32#8, 41#8] [] := by
  have ha : Atom [97#8] (.sym [97#8]) false := Atom.sym _ ⟨by decide, by decide, by decide, by decide, by decide, fun h => absurd h (by decide), fun h => absurd h (by decide)⟩
  refine ⟨Den.list (by decide) (Den.cons (Den.atom ha) (Den.nil (by decide))), ?_, ?_⟩
  · exact Lay.tok (t := .opn 40#8) trivial (Lay.tok (t := .atom [97#8] _ false) (Or.inr (by decide : delimB 41#8 = true)) (Lay.tok (t := .cls 41#8) trivial (Lay.nil _)))
  · exact Lay.ws (Ws.line [120#8] (by decide)) (Lay.tok (t := .opn 40#8) trivial (Lay.ws (w := [32#8]) (Ws.space _ (by decide))
      (Lay.block (t := .atom [97#8] _ false) ha (Blk.byte (by decide) (by decide) (by decide) Blk.nil) (Lay.tok (t := .atom [97#8] _ false) (Or.inr (by decide : delimB 32#8 = true))
      (Lay.ws (w := [32#8]) (Ws.space _ (by decide)) (Lay.tok (t := .cls 41#8) trivial (Lay.nil _)))))))

/-- C37/C38, the characters the grammar speaks of: white space is tab, newline, vertical tab, page, return and space; brackets of each kind
match their own kind only; white space, brackets, double quote and semicolon end a token; digits are `0` to `9`. -/
theorem C37_characters (b c : Byte) :
    (spaceB b = true ↔ b ∈ [9#8, 10#8, 11#8, 12#8, 13#8, 32#8]) ∧
    (matching b c = true ↔ (b, c) ∈ [(40#8, 41#8), (91#8, 93#8), (123#8, 125#8)]) ∧
    (isOpen b = true ↔ b ∈ [40#8, 91#8, 123#8]) ∧ (isClose b = true ↔ b ∈ [41#8, 93#8, 125#8]) ∧
    (delimB b = true ↔ b ∈ [9#8, 10#8, 11#8, 12#8, 13#8, 32#8, 40#8, 41#8, 91#8, 93#8, 123#8, 125#8, 34#8, 59#8]) ∧
    (digitB b = true ↔ b ∈ [48#8, 49#8, 50#8, 51#8, 52#8, 53#8, 54#8, 55#8, 56#8, 57#8]) ∧
    (xdigitB b = true ↔ b ∈ [48#8, 49#8, 50#8, 51#8, 52#8, 53#8, 54#8, 55#8, 56#8, 57#8, 65#8, 66#8, 67#8, 68#8, 69#8, 70#8, 97#8, 98#8, 99#8, 100#8, 101#8, 102#8]) := by
  refine ⟨?_, ?_, ?_, ?_, ?_, ?_, ?_⟩
  · revert b; decide +kernel
  · have h : matching b c = true ↔ (b = 40#8 ∧ c = 41#8) ∨ (b = 91#8 ∧ c = 93#8) ∨ (b = 123#8 ∧ c = 125#8) := by
      simp only [matching, Bool.or_eq_true, Bool.and_eq_true, beq_iff_eq, or_assoc]
    rw [h]; simp only [List.mem_cons, Prod.mk.injEq, List.not_mem_nil, or_false]
  · revert b; decide +kernel
  · revert b; decide +kernel
  · revert b; decide +kernel
  · revert b; decide +kernel
  · revert b; decide +kernel

/-- C37 in front of any datum, malformed ones included: white space and line comments are skipped. -/
theorem C37_space (w : List Byte) (hw : Ws w) (inp : List Byte) (n : Nat) : readObj n (w ++ inp) = readObj n inp := by
  rw [← readObj_skip, skip_ws hw, readObj_skip]

example : Ws [59#8, 40#8, 34#8, 10#8] := Ws.line [40#8, 34#8] (by decide)

/-- C37 in front of any datum, malformed ones included: nested block comments are skipped. -/
theorem C37_block (body : List Byte) (hb : Blk body) (inp : List Byte) (n : Nat) :
    readObj (n + 2) (35#8 :: 124#8 :: (body ++ (124#8 :: 35#8 :: inp))) = readObj n inp := by
  rw [readObj_hash, readHash, if_neg (by decide), if_neg (by decide), if_neg (by decide), if_neg (by decide), if_neg (by decide), if_neg (by decide),
    if_neg (by decide), if_neg (by decide), if_neg (by decide), if_pos rfl, blockLoop_end hb, Res.ok_bind]

-- #|a #|b|# c|#
example : Blk [97#8, 32#8, 35#8, 124#8, 98#8, 124#8, 35#8, 32#8, 99#8] :=
  Blk.byte (by decide) (by decide) (by decide) (Blk.byte (by decide) (by decide) (by decide)
    (Blk.nest (i := [98#8]) (Blk.byte (by decide) (by decide) (by decide) Blk.nil)
      (Blk.byte (by decide) (by decide) (by decide) (Blk.byte (by decide) (by decide) (by decide) Blk.nil))))

/-- C37 in front of any datum: a commented-out datum is skipped. -/
theorem C37_datum (inp rest : List Byte) (e : Dat) (he : Ev (fun n => readObj n inp) (e, rest)) (hne : skip false inp ≠ []) (hff : (skip false inp).head? ≠ some 255#8)
    (q : Dat × List Byte) (hq : Ev (fun n => readObj n rest) q) : Ev (fun n => readObj n (35#8 :: 59#8 :: inp)) q := by
  obtain ⟨x, r, ex⟩ := List.exists_cons_of_ne_nil hne
  have hx : x ≠ 255#8 := by rintro rfl; rw [ex] at hff; exact hff rfl
  have h8 : Ev (fun n => readHash n (59#8 :: inp)) q := he.succ2 hq (fun n hn hn' => by
    try simp only at hn hn' ⊢
    rw [readHash, if_neg (by decide), if_neg (by decide), if_neg (by decide), if_neg (by decide), if_neg (by decide), if_neg (by decide),
      if_neg (by decide), if_neg (by decide), if_pos rfl, readObj_skip, hn, ex]
    simp only [peek, getc]
    rw [notEof_ok hx]
    simp only [Res.ok_bind]
    exact hn')
  exact h8.succ (fun n hn => by rw [readObj_hash, hn])

-- #;1 2
example : Ev (fun n => readObj n [49#8, 32#8, 50#8]) (.fix 1, [32#8, 50#8]) ∧ skip false [49#8, 32#8, 50#8] ≠ [] ∧
    Ev (fun n => readObj n [32#8, 50#8]) (.fix 2, []) := by
  refine ⟨⟨2, fun n hn => ?_⟩, by decide, ⟨2, fun n hn => ?_⟩⟩ <;>
  · obtain ⟨k, rfl⟩ : ∃ k, n = k + 2 := ⟨n - 2, by omega⟩
    rfl

/-- Negation of C37: a datum comment or a block comment in front of a closing parenthesis makes the list unreadable:
`(1 #;2)` and `(1 #|x|#)`. -/
theorem C37_negated_close (n : Nat) : readObj (n + 8) [40#8, 49#8, 32#8, 35#8, 59#8, 50#8, 41#8] = .err ∧
    readObj (n + 8) [40#8, 49#8, 32#8, 35#8, 124#8, 120#8, 124#8, 35#8, 41#8] = .err ∧
    readObj (n + 8) [40#8, 49#8, 32#8, 41#8] = .ok (.cons (.fix 1) .null, []) := ⟨rfl, rfl, rfl⟩

/-- Negation of C37: a block comment in front of a dot changes the datum: `(1 #|x|# . 2)` is read as the list of 1, the symbol `.`
and 2, not as the pair of 1 and 2. -/
theorem C37_negated_dot (n : Nat) :
    readObj (n + 10) [40#8, 49#8, 32#8, 35#8, 124#8, 120#8, 124#8, 35#8, 32#8, 46#8, 32#8, 50#8, 41#8] =
      .ok (.cons (.fix 1) (.cons (.sym [46#8]) (.cons (.fix 2) .null)), []) ∧
    readObj (n + 10) [40#8, 49#8, 32#8, 46#8, 32#8, 50#8, 41#8] = .ok (.cons (.fix 1) (.fix 2), []) := ⟨rfl, rfl⟩

/-- Negation of C37: a comment whose text ends with `|` is not closed: `#|x||#` followed by a datum. -/
theorem C37_negated_bar (n : Nat) : readObj (n + 8) [35#8, 124#8, 120#8, 124#8, 124#8, 35#8, 49#8] = .err := rfl

/-! ### C38: exactly one datum is consumed -/

/-- the rest of a file behind its last datum (specification): white space and comments, the last line comment possibly not ended -/
inductive Trail : List Byte → Prop
  | nil : Trail []
  | ws {w r : List Byte} : Ws w → Trail r → Trail (w ++ r)
  | line (body : List Byte) : 10#8 ∉ body → Trail (59#8 :: body)
  | block {body r : List Byte} : Blk body → Trail r → Trail (35#8 :: 124#8 :: (body ++ (124#8 :: 35#8 :: r)))
  | datum {ts : List Tok} {d : Dat} {inp r : List Byte} : Den .obj ts d → Lay ts inp r → Trail r → Trail (35#8 :: 59#8 :: inp)

/-- the tokens of a sequence of data (specification) -/
inductive Data : List Tok → List Dat → Prop
  | nil : Data [] []
  | cons {ts us : List Tok} {d : Dat} {ds : List Dat} : Den .obj ts d → Data us ds → Data (ts ++ us) (d :: ds)

/-- C38: reading a datum stops right behind it, whatever tokens of further data follow. -/
theorem C38_position (ts us : List Tok) (d : Dat) (inp rest : List Byte) (hd : Den .obj ts d) (hl : Lay (ts ++ us) inp rest) :
    ∃ inp', Lay us inp' rest ∧ Ev (fun n => readObj n inp) (d, inp') := read_layout hd hl

-- #t#f: two data
example : Den .obj [.atom [35#8, 116#8] (.bool true) true] (.bool true) ∧
    Lay ([.atom [35#8, 116#8] (.bool true) true] ++ [.atom [35#8, 102#8] (.bool false) true]) [35#8, 116#8, 35#8, 102#8] [] :=
  ⟨Den.atom Atom.tru, Lay.tok (t := .atom [35#8, 116#8] _ true) (Or.inl rfl) (Lay.tok (t := .atom [35#8, 102#8] _ true) (Or.inl rfl) (Lay.nil _))⟩

/-- C38 for every input, malformed ones included: what a successful read has consumed is a prefix of the input, nothing is put back that was
not there, and unless the input is at its end at least one character is consumed. -/
theorem C38_prefix (n : Nat) (inp rest : List Byte) (d : Dat) (h : readObj n inp = .ok (d, rest)) :
    (∃ pre, inp = pre ++ rest) ∧ (skip false inp ≠ [] → rest.length < inp.length) := by
  have h1 := (read_suffix n).1 inp (d, rest) h
  refine ⟨?_, fun hne => ?_⟩
  · obtain ⟨pre, hp⟩ := h1.trans (tail_skip_suffix inp)
    exact ⟨pre, hp.symm⟩
  · obtain ⟨x, r, ex⟩ := List.exists_cons_of_ne_nil hne
    have h2 := h1.length_le
    have h3 := (skip_suffix false inp).length_le
    rw [ex] at h2 h3
    simp only [List.tail_cons, List.length_cons] at h2 h3
    omega

example : readObj 3 [32#8, 39#8, 97#8, 32#8, 41#8] = .ok (.cons (.sym quoteSym) (.cons (.sym [97#8]) .null), [32#8, 41#8]) := rfl

theorem atom_ne_nul {s : List Byte} {d : Dat} {f : Bool} (h : Atom s d f) : d ≠ .nul := by cases h <;> simp

theorem den_ne_nul {m : Mode} {ts : List Tok} {d : Dat} (h : Den m ts d) : d ≠ .nul := by
  induction h with
  | atom ha => exact atom_ne_nul ha
  | list _ _ ih => exact ih
  | _ => simp [ofList]

theorem trail_read {r : List Byte} (h : Trail r) : ∃ r', Ev (fun n => readObj n r) (.nul, r') := by
  induction h with
  | nil => exact ⟨[], 1, fun n hn => by obtain ⟨k, rfl⟩ : ∃ k, n = k + 1 := ⟨n - 1, by omega⟩; rfl⟩
  | ws hw _ ih =>
    obtain ⟨r', N, h⟩ := ih
    exact ⟨r', N, fun n hn => by have := h n hn; simp only at this ⊢; rw [C37_space _ hw, this]⟩
  | line body hb =>
    have hs : ∀ body : List Byte, 10#8 ∉ body → skip true body = [] := by
      intro body
      induction body with
      | nil => intro _; rfl
      | cons b body ih =>
        intro hb
        simp only [List.mem_cons, not_or] at hb
        rw [skip, if_neg (fun e => hb.1 e.symm)]
        exact ih hb.2
    refine ⟨[], 1, fun n hn => ?_⟩
    obtain ⟨k, rfl⟩ : ∃ k, n = k + 1 := ⟨n - 1, by omega⟩
    simp only
    rw [← readObj_skip, skip, if_neg (by decide), if_pos rfl, hs body hb]; rfl
  | block hb _ ih =>
    obtain ⟨r', N, h⟩ := ih
    refine ⟨r', N + 2, fun n hn => ?_⟩
    obtain ⟨k, rfl⟩ : ∃ k, n = k + 2 := ⟨n - 2, by omega⟩
    have := h k (by omega)
    simp only at this ⊢
    rw [C37_block _ hb, this]
  | @datum ts d inp r hd hl _ ih =>
    obtain ⟨r', h⟩ := ih
    obtain ⟨t, us, e, hst, _⟩ := den_obj_head hd
    subst e
    obtain ⟨x, r'', ex, _, hx, _⟩ := lay_start hl (hst rfl)
    refine ⟨r', C37_datum inp r d (C37_partial _ d hd inp inp r hl hl).1 (by rw [ex]; simp) (by rw [ex]; simpa using hx) _ h⟩

/-- C38: reading a file datum by datum until the end of input is reported gives the data of the file, in order, however the file is laid out
and commented. -/
theorem C38_file (ts : List Tok) (ds : List Dat) (hd : Data ts ds) (inp rest : List Byte) (hl : Lay ts inp rest) (ht : Trail rest) :
    ∃ N, ∀ fuel, N ≤ fuel → ∀ k, ds.length < k → readAll fuel k inp = .ok ds := by
  induction hd generalizing inp with
  | nil =>
    cases hl
    obtain ⟨r', N, h⟩ := trail_read ht
    refine ⟨N, fun fuel hf k hk => ?_⟩
    obtain ⟨k, rfl⟩ : ∃ j, k = j + 1 := ⟨k - 1, by simp at hk; omega⟩
    have := h fuel hf
    simp only at this
    rw [readAll, this]; rfl
  | @cons ts us d ds hd _ ih =>
    obtain ⟨inp', hl', N, h⟩ := read_layout hd hl
    obtain ⟨N', h'⟩ := ih inp' hl'
    refine ⟨N + N', fun fuel hf k hk => ?_⟩
    simp only [List.length_cons] at hk
    obtain ⟨k, rfl⟩ : ∃ j, k = j + 1 := ⟨k - 1, by omega⟩
    have := h fuel (by omega)
    simp only at this
    rw [readAll, this, Res.ok_bind, if_neg (den_ne_nul hd), h' fuel (by omega) k (by omega)]; rfl

-- #t #f;x
example : Data [.atom [35#8, 116#8] (.bool true) true, .atom [35#8, 102#8] (.bool false) true] [.bool true, .bool false] ∧
    Lay [.atom [35#8, 116#8] (.bool true) true, .atom [35#8, 102#8] (.bool false) true] [35#8, 116#8, 32#8, 35#8, 102#8, 59#8, 120#8] [59#8, 120#8] ∧
    Trail [59#8, 120#8] :=
  ⟨Data.cons (Den.atom Atom.tru) (Data.cons (Den.atom Atom.fls) Data.nil),
    Lay.tok (t := .atom [35#8, 116#8] _ true) (Or.inl rfl) (Lay.ws (w := [32#8]) (Ws.space _ (by decide)) (Lay.tok (t := .atom [35#8, 102#8] _ true) (Or.inl rfl) (Lay.nil _))),
    Trail.line [120#8] (by decide)⟩

/-! ### C39: memory safety -/

/-- more fuel changes no outcome (so fuel is only a device to define the reader) -/
theorem C39_fuel (n m : Nat) (h : n ≤ m) (inp : List Byte) (hn : readObj n inp ≠ .oof) : readObj m inp = readObj n inp :=
  (readObj_le h inp).eq hn

example : readObj 2 [49#8] ≠ .oof := by decide

/-- C39, with restrictions: on ASCII input with fewer than 4095 characters between delimiters, fewer than 16 digits in a row, no string of
exactly 4096 characters and no vector syntax, of any length and nesting, the reader returns a datum, reports the end of input or signals an
error: no undefined behaviour, no endless loop. -/
theorem C39_partial (inp : List Byte) (hs : Safe inp) (hv : NoVec inp) :
    (∃ d rest, readObj (3 * inp.length + 1) inp = .ok (d, rest)) ∨ readObj (3 * inp.length + 1) inp = .err := by
  have h1 := (read_ne_ub (3 * inp.length + 1)).1 inp hs
  have h2 := (read_ne_oof (3 * inp.length + 1)).1 inp hv (Nat.le_refl _)
  cases h : readObj (3 * inp.length + 1) inp with
  | ok q => exact Or.inl ⟨q.1, q.2, rfl⟩
  | err => exact Or.inr rfl
  | ub => exact absurd h h1
  | oof => exact absurd h h2

theorem short_safe {inp : List Byte} (h1 : ∀ b ∈ inp, b.msb = false) (h2 : inp.length < 16) : Safe inp :=
  ⟨h1, fun w hw _ => by have := hw.length_le; omega, fun w hw _ => by have := hw.length_le; omega, fun ps hp hl => by
    have := hp.length_le
    have hk : ∀ {ps : List Byte} {k : Nat}, StrLen ps k → k ≤ ps.length := by
      intro ps k h
      induction h with
      | nil => simp
      | plain _ _ _ ih => simp; omega
      | esc _ ih => simp; omega
    have := hk hl
    simp at *
    omega⟩

-- (ab "c
example : Safe [40#8, 97#8, 98#8, 32#8, 34#8, 99#8] ∧ NoVec [40#8, 97#8, 98#8, 32#8, 34#8, 99#8] :=
  ⟨short_safe (by decide) (by decide), by unfold NoVec; decide⟩

/-- C39, memory safety alone, vectors included, for every amount of fuel. -/
theorem C39_no_ub_partial (inp : List Byte) (hs : Safe inp) (n : Nat) : readObj n inp ≠ .ub := (read_ne_ub n).1 inp hs

example : Safe [35#8, 40#8, 49#8] := short_safe (by decide) (by decide)

/-- C39, termination alone, for every input without vector syntax, of arbitrary bytes. -/
theorem C39_terminates_partial (inp : List Byte) (hv : NoVec inp) (n : Nat) (hn : 3 * inp.length + 1 ≤ n) : readObj n inp ≠ .oof :=
  (read_ne_oof n).1 inp hv hn

example : NoVec [35#8, 39#8, 40#8, 255#8] := by unfold NoVec; decide

/-- Negation of C39: every symbol of exactly 4096 characters overruns the token buffer. -/
theorem C39_negated_symbol (b : Byte) (s rest : List Byte) (h1 : ∀ x ∈ b :: s, delimB x = false ∧ x.msb = false) (h2 : s.length = 4095)
    (hb : digitB b = false ∧ b ≠ 35#8 ∧ b ≠ 39#8 ∧ b ≠ 45#8 ∧ b ≠ 43#8) (hr : DelimStart rest) (n : Nat) : readObj (n + 1) (b :: (s ++ rest)) = .ub := by
  have hx := h1 b (by simp)
  have hn := nondelim_facts b hx.1
  rw [readObj_atom hn.1 hn.2.1 hb.2.1 hn.2.2.1 hb.2.2.1 (msb_ne b hx.2), readAtom, ctype_ok hx.2, hb.1, Res.ok_bind, if_neg (by simp [hb.2.2.2.1, hb.2.2.2.2]),
    if_neg (by simp [hn.2.2.2.2]), delimC_some hx.2, hx.1, Res.ok_bind, if_pos (by decide)]
  exact symLoop_long s [] b rest h1 hr (by simp [h2])

example : (∀ x ∈ 97#8 :: List.replicate 4095 97#8, delimB x = false ∧ BitVec.msb x = false) ∧ (List.replicate 4095 (97#8)).length = 4095 := by
  refine ⟨fun x hx => ?_, List.length_replicate⟩
  have : x = 97#8 := by
    rcases List.mem_cons.1 hx with h | h
    · exact h
    · exact (List.mem_replicate.1 h).2
  subst this
  decide

/-- Negation of C39: every string of exactly 4096 characters overruns the token buffer. -/
theorem C39_negated_string (ps bs rest : List Byte) (h : Pieces ps bs) (hl : bs.length = 4096) (n : Nat) :
    readObj (n + 1) (34#8 :: (ps ++ 34#8 :: rest)) = .ub := by
  rw [readObj_atom (by decide) (by decide) (by decide) (by decide) (by decide) (by decide), readAtom, ctype_ok (by decide), Res.ok_bind, if_neg (by simp [digitB]), if_pos rfl]
  exact strLoop_long h [] rest (by simp [hl])

example : Pieces ((List.replicate 4096 97#8).flatMap asIs) (List.replicate 4096 97#8) ∧ (List.replicate 4096 (97#8)).length = 4096 := by
  refine ⟨pieces_flatMap fun b hb => ?_, List.length_replicate⟩
  rw [(List.mem_replicate.1 hb).2]
  exact Piece.plain _ (by decide) (by decide) (by decide) (by decide)

/-- Negation of C39: every sequence of decimal digits denoting a number that is no fixnum has undefined behaviour (signed overflow),
whatever follows. -/
theorem C39_negated_number (ds rest : List Byte) (h1 : ∀ b ∈ ds, digitB b = true) (h2 : 2 ^ 63 ≤ numeral 10 decVal ds) (n : Nat) :
    readObj (n + 1) (ds ++ rest) = .ub := by
  cases ds with
  | nil => simp [numeral] at h2
  | cons x r =>
    have hx := h1 x (by simp)
    have hf := digit_facts x hx
    have h45 : ¬ (some x : Ci) = some 45#8 := by simpa using hf.2.2.2.2.2.2.2.2.2.1
    have h43 : ¬ (some x : Ci) = some 43#8 := by simpa using hf.2.2.2.2.2.2.2.2.2.2.1
    rw [List.cons_append, readObj_num n (Or.inl hx), readNum, if_neg h45, if_neg h43, poke, if_neg (by simp [maxLen]), Res.ok_bind]
    simp only [h45, h43, or_self, if_false, Option.getD_some, List.nil_append]
    have := digLoop_over 10 digitB (fun b => b.toNat - 48) decVal dec_params.1 (x :: r) [x] 0 rest h1 (by decide) h2
    rw [show ungetc (some x) (r ++ rest) = x :: r ++ rest from rfl, this]
    rfl

-- 9223372036854775808
example : 2 ^ 63 ≤ numeral 10 decVal [57#8, 50#8, 50#8, 51#8, 51#8, 55#8, 50#8, 48#8, 51#8, 54#8, 56#8, 53#8, 52#8, 55#8, 55#8, 53#8, 56#8, 48#8, 56#8] := by decide

/-- Negation of C39: a vector that is not closed before the end of input is read forever (each round allocates an element). -/
theorem C39_negated_vector (inp : List Byte) (h : Trail inp ∧ skip false inp = []) (n : Nat) : readObj n (35#8 :: 40#8 :: inp) = .oof := by
  cases n with
  | zero => rw [readObj]
  | succ n =>
    rw [readObj_hash]
    cases n with
    | zero => rw [readHash]
    | succ n =>
      rw [readHash, if_neg (by decide), if_neg (by decide), if_neg (by decide), if_neg (by decide), if_neg (by decide), if_pos rfl]
      exact readVec_eof inp h.2 n []

example : Trail [59#8, 120#8] ∧ skip false [59#8, 120#8] = [] := ⟨Trail.line _ (by decide), rfl⟩

/-- Negation of C39: every byte from 0x80 to 0xFE at the start of a datum is passed to `isdigit` as a negative number, which is undefined. -/
theorem C39_negated_byte (b : Byte) (rest : List Byte) (h : b.msb = true) (h' : b ≠ 255#8) (n : Nat) : readObj (n + 1) (b :: rest) = .ub := by
  have : ∀ b : Byte, b.msb = true → spaceB b = false ∧ b ≠ 59#8 ∧ b ≠ 35#8 ∧ isOpen b = false ∧ b ≠ 39#8 := by decide
  obtain ⟨h1, h2, h3, h4, h5⟩ := this b h
  rw [readObj_atom h1 h2 h3 h4 h5 h', readAtom, ctype, if_pos h]; rfl

example : BitVec.msb (0xC3#8) = true := by decide

/-- Negation of C39 (neither a datum nor an error): a quote at the end of input gives a list that contains the C null pointer. -/
theorem C39_negated_quote (inp : List Byte) (h : skip false inp = []) (n : Nat) :
    ∃ r, readObj (n + 2) (39#8 :: inp) = .ok (.cons (.sym quoteSym) (.cons .nul .null), r) := by
  refine ⟨[], ?_⟩
  rw [readObj, skip_stop (by decide) (by decide)]
  simp only
  rw [if_neg (by decide), if_neg (by decide)]
  simp only [if_true]
  rw [← readObj_skip, h]; rfl

example : skip false [32#8, 10#8] = [] := rfl

/-! ### C40: tokens starting with a digit -/

/-- C40: every fixnum except the smallest, spelled in any way by decimal digits with an optional sign, is read as that number. -/
theorem C40_integer (ds rest : List Byte) (h : Digits 10 digitB decVal ds) (hr : DelimStart rest) (n : Nat) :
    readObj (n + 2) (ds ++ rest) = .ok (.fix (numeral 10 decVal ds), rest) ∧
    readObj (n + 2) (43#8 :: (ds ++ rest)) = .ok (.fix (numeral 10 decVal ds), rest) ∧
    readObj (n + 2) (45#8 :: (ds ++ rest)) = .ok (.fix (-(numeral 10 decVal ds : Int)), rest) :=
  ⟨read_atom (Atom.dec ds h) (Or.inr hr) n, read_atom (Atom.pos ds h) (Or.inr hr) n, read_atom (Atom.neg ds h) (Or.inr hr) n⟩

-- 007
example : Digits 10 digitB decVal [48#8, 48#8, 55#8] ∧ numeral 10 decVal [48#8, 48#8, 55#8] = 7 ∧ DelimStart [41#8] :=
  ⟨⟨by decide, by decide, by decide, by decide⟩, by decide, (by decide : delimB 41#8 = true)⟩

/-- the same for hexadecimal digits behind `#x` -/
theorem C40_hexadecimal (ds rest : List Byte) (h : Digits 16 xdigitB hexVal ds) (hr : DelimStart rest) (n : Nat) :
    readObj (n + 2) (35#8 :: 120#8 :: (ds ++ rest)) = .ok (.fix (numeral 16 hexVal ds), rest) ∧
    readObj (n + 2) (35#8 :: 120#8 :: 45#8 :: (ds ++ rest)) = .ok (.fix (-(numeral 16 hexVal ds : Int)), rest) :=
  ⟨read_atom (Atom.hex ds h) (Or.inr hr) n, read_atom (Atom.hneg ds h) (Or.inr hr) n⟩

-- fF
example : Digits 16 xdigitB hexVal [102#8, 70#8] ∧ numeral 16 hexVal [102#8, 70#8] = 255 :=
  ⟨⟨by decide, by decide, by decide, by decide⟩, by decide⟩

/-- C40 for tokens starting with a minus sign and digits followed by something else: the symbol with exactly that spelling. -/
theorem C40_partial (d b : Byte) (ds s rest : List Byte) (hds : ∀ x ∈ d :: ds, digitB x = true) (hv : numeral 10 decVal (d :: ds) < 2 ^ 63)
    (hb : digitB b = false) (hs : ∀ x ∈ b :: s, delimB x = false ∧ x.msb = false ∧ x ≠ 0#8) (hl : ds.length + s.length + 3 < 4096) (hr : DelimStart rest) (n : Nat) :
    readObj (n + 1) (45#8 :: d :: (ds ++ b :: (s ++ rest))) = .ok (.sym (45#8 :: d :: (ds ++ b :: s)), rest) := by
  have h0 : ∀ x ∈ 45#8 :: (d :: ds ++ b :: s), x ≠ 0#8 := by
    intro x hx
    simp only [List.mem_cons, List.mem_append, List.cons_append] at hx
    rcases hx with rfl | rfl | hx | rfl | hx
    · decide
    · exact (digit_facts _ (hds _ (by simp))).2.2.2.2.2.2.2.2.2.2.2
    · exact (digit_facts _ (hds _ (by simp [hx]))).2.2.2.2.2.2.2.2.2.2.2
    · exact (hs _ (by simp)).2.2
    · exact (hs _ (by simp [hx])).2.2
  have := (readNum_mixed (inp := rest) hds hv hb (fun x hx => ⟨(hs x hx).1, (hs x hx).2.1⟩) (by simp only [List.length_cons]; omega) hr).1
  rw [cstr_eq_self h0] at this
  rw [readObj_num n (Or.inr ⟨Or.inl rfl, d, _, rfl, hds d (by simp)⟩)]
  exact this

-- -12ab
example : (∀ x ∈ [49#8, 50#8], digitB x = true) ∧ numeral 10 decVal [49#8, 50#8] < 2 ^ 63 ∧ digitB 97#8 = false ∧
    (∀ x ∈ [97#8, 98#8], delimB x = false ∧ BitVec.msb x = false ∧ x ≠ 0#8) := by decide

/-- Negation of C40: in every token that starts with digits (without a sign) and goes on with something else, the first digit is doubled. -/
theorem C40_negated (d b : Byte) (ds s rest : List Byte) (hds : ∀ x ∈ d :: ds, digitB x = true) (hv : numeral 10 decVal (d :: ds) < 2 ^ 63)
    (hb : digitB b = false) (hs : ∀ x ∈ b :: s, delimB x = false ∧ x.msb = false ∧ x ≠ 0#8) (hl : ds.length + s.length + 3 < 4096) (hr : DelimStart rest) (n : Nat) :
    readObj (n + 1) (d :: (ds ++ b :: (s ++ rest))) = .ok (.sym (d :: d :: (ds ++ b :: s)), rest) := by
  have h0 : ∀ x ∈ d :: (d :: ds ++ b :: s), x ≠ 0#8 := by
    intro x hx
    simp only [List.mem_cons, List.mem_append, List.cons_append] at hx
    rcases hx with rfl | rfl | hx | rfl | hx
    · exact (digit_facts _ (hds _ (by simp))).2.2.2.2.2.2.2.2.2.2.2
    · exact (digit_facts _ (hds _ (by simp))).2.2.2.2.2.2.2.2.2.2.2
    · exact (digit_facts _ (hds _ (by simp [hx]))).2.2.2.2.2.2.2.2.2.2.2
    · exact (hs _ (by simp)).2.2
    · exact (hs _ (by simp [hx])).2.2
  have := (readNum_mixed (inp := rest) hds hv hb (fun x hx => ⟨(hs x hx).1, (hs x hx).2.1⟩) (by simp only [List.length_cons]; omega) hr).2.2 d ds rfl
  rw [cstr_eq_self h0] at this
  rw [readObj_num n (Or.inl (hds d (by simp)))]
  exact this

-- 12ab
example : readObj 1 [49#8, 50#8, 97#8, 98#8] = .ok (.sym [49#8, 49#8, 50#8, 97#8, 98#8], []) := rfl

/-- Negation of C40: in every token that starts with a plus sign and digits and goes on with something else, the plus sign is lost. -/
theorem C40_negated_plus (d b : Byte) (ds s rest : List Byte) (hds : ∀ x ∈ d :: ds, digitB x = true) (hv : numeral 10 decVal (d :: ds) < 2 ^ 63)
    (hb : digitB b = false) (hs : ∀ x ∈ b :: s, delimB x = false ∧ x.msb = false ∧ x ≠ 0#8) (hl : ds.length + s.length + 3 < 4096) (hr : DelimStart rest) (n : Nat) :
    readObj (n + 1) (43#8 :: d :: (ds ++ b :: (s ++ rest))) = .ok (.sym (d :: (ds ++ b :: s)), rest) := by
  have h0 : ∀ x ∈ d :: ds ++ b :: s, x ≠ 0#8 := by
    intro x hx
    simp only [List.mem_cons, List.mem_append, List.cons_append] at hx
    rcases hx with rfl | hx | rfl | hx
    · exact (digit_facts _ (hds _ (by simp))).2.2.2.2.2.2.2.2.2.2.2
    · exact (digit_facts _ (hds _ (by simp [hx]))).2.2.2.2.2.2.2.2.2.2.2
    · exact (hs _ (by simp)).2.2
    · exact (hs _ (by simp [hx])).2.2
  have := (readNum_mixed (inp := rest) hds hv hb (fun x hx => ⟨(hs x hx).1, (hs x hx).2.1⟩) (by simp only [List.length_cons]; omega) hr).2.1
  rw [cstr_eq_self h0] at this
  rw [readObj_num n (Or.inr ⟨Or.inr rfl, d, _, rfl, hds d (by simp)⟩)]
  exact this

-- +1a
example : readObj 1 [43#8, 49#8, 97#8] = .ok (.sym [49#8, 97#8], []) := rfl

end Minim.Rd
