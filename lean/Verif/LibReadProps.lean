import Verif.LibReadEnd
import Mathlib.Data.List.Forall2

set_option autoImplicit false

/-! # Properties of the library reader (C92, C93) -/

namespace Minim.LRd

open Minim.Rd (Dat digitB xdigitB numeral decVal hexVal quoteSym quoteSyntaxSym)

/-! ### C92: a text is read as the data it denotes -/

/-- C92 for one datum: reading a layout of a datum gives a syntax object for exactly that datum and stops right behind its last token.
Missing: the texts of the negations below. -/
theorem C92_datum_partial {ts us : List Tok} {d : Dat} {inp rest : List Byte} (hd : Den .obj ts d) (hl : Lay (ts ++ us) inp rest) :
    ∃ w inp', datum w = d ∧ Full w ∧ Lay us inp' rest ∧ ∃ N, ∀ n, N ≤ n → rd n inp = .ok (w, inp') := by
  obtain ⟨w, inp', h1, h2, N, hN⟩ := read_layout hd hl
  refine ⟨w, inp', h2.2, ?_, h1, N, hN⟩
  rcases (full_all N).1 _ _ (hN N (Nat.le_refl _)) with h | h
  · have h' : w = .eof := h
    rw [h'] at h2
    cases h2.1
  · exact h

-- (a ; c \n . #|x|# '(12 "q\\")) followed by a newline
example : ∃ ts d inp, Den .obj ts d ∧ Lay (ts ++ []) inp [10#8] ∧ d = .cons (.sym [97#8]) (.cons (.sym quoteSym) (.cons (.cons (.fix 12) (.cons (.str [113#8, 92#8]) .null)) .null)) ∧
    inp = [40#8, 97#8, 32#8, 59#8, 99#8, 10#8, 46#8, 32#8, 35#8, 124#8, 120#8, 124#8, 35#8, 39#8, 40#8, 49#8, 50#8, 34#8, 113#8, 92#8, 92#8, 34#8, 41#8, 41#8, 10#8] := by
  have hsym : Atom [97#8] (.sym [97#8]) .delim := .sym _ ⟨by decide, fun b hb => by simp at hb; subst hb; exact ⟨by decide, by decide⟩,
    by decide, by decide, by decide, fun h => absurd h (by decide)⟩ (by decide) (by decide)
  have hnum : Atom [49#8, 50#8] (.fix (numeral 10 decVal [49#8, 50#8])) .inner := .dec _ ⟨by decide, by decide, by decide⟩
  have hstr : Atom ([34#8] ++ (([113#8] ++ ([92#8, 92#8] ++ [])) ++ [34#8])) (.str [113#8, 92#8]) .delim :=
    .str _ _ (.cons (.plain _ (by decide) (by decide) (by decide)) (.cons .bs .nil))
  refine ⟨_, _, _, .list (o := 40#8) (by decide) (.dot (by decide) (.atom hsym) (.quote (.list (o := 40#8) (by decide) (.cons (.atom hnum) (.cons (.atom hstr) (.nil (by decide))))))),
    ?_, rfl, rfl⟩
  refine .tok (t := .opn 40#8) trivial ?_
  refine .tok (t := .atom [97#8] (.sym [97#8]) .delim) (fun b r h => by cases h; decide) ?_
  refine .ws (w := [32#8]) .space ?_
  refine .ws (w := 59#8 :: ([99#8] ++ [10#8])) (.line [99#8] (by decide)) ?_
  refine .tok (t := .dot) ⟨_, _, rfl, by decide⟩ ?_
  refine .ws (w := [32#8]) .space ?_
  refine .block (body := [120#8]) trivial (.byte (by decide) (by decide) .nil) ?_
  refine .tok (t := .quote) trivial ?_
  refine .tok (t := .opn 40#8) trivial ?_
  refine .tok (t := .atom [49#8, 50#8] (.fix (numeral 10 decVal [49#8, 50#8])) .inner) ⟨_, _, rfl, by decide⟩ ?_
  refine .tok (t := .atom ([34#8] ++ (([113#8] ++ ([92#8, 92#8] ++ [])) ++ [34#8])) (.str [113#8, 92#8]) .delim) (fun b r h => by cases h; decide) ?_
  refine .tok (t := .cls 41#8) trivial ?_
  refine .tok (t := .cls 41#8) trivial ?_
  exact .nil _

/-- C92 for module files: the forms of a file are the data its text denotes, in order. -/
theorem C92_file_partial {ts : List Tok} {ds : List Dat} {inp rest : List Byte} (hf : File ts ds) (hl : Lay ts inp rest) (he : End rest) :
    ∃ ws, ws.map datum = ds ∧ ∃ N, ∀ n k, N ≤ n → ds.length < k → rdFile n k inp [] = .ok ws := by
  obtain ⟨ws, h1, _, N, hN⟩ := file_all he hf inp hl
  exact ⟨ws, h1, N, fun n k hn hk => hN n k [] hn hk⟩

-- the file  #t#f ;c
example : File ([.atom [35#8, 116#8] (.bool true) .free] ++ ([.atom [35#8, 102#8] (.bool false) .free] ++ [])) [.bool true, .bool false] ∧
    Lay [.atom [35#8, 116#8] (.bool true) .free, .atom [35#8, 102#8] (.bool false) .free] [35#8, 116#8, 35#8, 102#8, 32#8, 59#8, 99#8] [32#8, 59#8, 99#8] ∧
    End [32#8, 59#8, 99#8] :=
  ⟨.cons (.atom .tru) (.cons (.atom .fls) .nil),
   .tok (t := .atom [35#8, 116#8] _ .free) trivial (.tok (t := .atom [35#8, 102#8] _ .free) trivial (.nil _)),
   .ws (w := [32#8]) .space (.line [99#8] (by decide))⟩

/-- Whatever the input is, if the reader returns then it returns the eof object or an object that is syntax in every part, the rest of the
input is a suffix of the input, a proper one unless the eof object is returned, and the outcome does not depend on the bound on the steps. -/
theorem C92_result (n : Nat) (inp : List Byte) (w : W) (rest : List Byte) (h : rd n inp = .ok (w, rest)) :
    (w = .eof ∨ Full w) ∧ rest <:+ inp ∧ (w ≠ .eof → rest.length < inp.length) ∧ ∀ m, n ≤ m → rd m inp = .ok (w, rest) := by
  refine ⟨(full_all n).1 _ _ h, ((suffix_all n).1 _ _ h).1, fun hw => ?_, fun m hm => (rd_mono hm inp).eq_ok h⟩
  cases e : skipL false inp with
  | nil =>
    cases n with
    | zero => cases h
    | succ n => rw [rd, e] at h; cases h; exact absurd rfl hw
  | cons x r =>
    have h1 := (((suffix_all n).1 _ _ h).2 x r e).length_le
    have h2 := (skip_suffix false inp).length_le
    rw [e, List.length_cons] at h2
    simp only at h1
    omega

example : rd 9 [35#8, 40#8, 97#8, 41#8, 98#8] = .ok (.stx (.vec (.cons (.stx (.sym [97#8])) .null)), [98#8]) := by decide +kernel

/-- Reading ends, with a datum or an error, on every text in which no vector and no block comment starts. -/
theorem C92_ends (inp : List Byte) (h : NoLoop inp) (n : Nat) (hn : 3 * inp.length < n) : rd n inp ≠ .oof := (ends_all n).1 inp h hn

-- ((#;#'a
example : NoLoop [40#8, 40#8, 35#8, 59#8, 35#8, 39#8, 97#8] := by
  intro x r h
  have hm : x ∈ [59#8, 39#8] := by
    obtain ⟨p, hp⟩ := h
    rcases p with _ | ⟨_, _ | ⟨_, _ | ⟨_, _ | ⟨_, _ | ⟨_, _ | ⟨_, _ | ⟨_, p⟩⟩⟩⟩⟩⟩⟩ <;> simp_all
  simp only [List.mem_cons, List.not_mem_nil, or_false] at hm
  rcases hm with rfl | rfl <;> decide

/-- Negation of C92: a decimal number is not read if the input ends right behind it, although the core reader reads it. -/
theorem C92_negated_number (ds : List Byte) (h : ds ≠ []) (hd : ∀ b ∈ ds, digitB b = true) (hlt : numeral 10 decVal ds < 2 ^ 63) (hlen : ds.length < 4096) (n : Nat) :
    rd (n + 1) ds = .err ∧ ∃ N, ∀ m, N ≤ m → Rd.readObj m ds = .ok (.fix (numeral 10 decVal ds), []) := by
  constructor
  · have hn := numL_digits ds [] 0 [] hd hlt
    rw [List.append_nil] at hn
    obtain ⟨b, r, rfl⟩ := List.exists_cons_of_ne_nil h
    rw [rd_digit n (hd b (by simp)), hn]
    rfl
  · have := Rd.read_atom (Rd.Atom.dec ds ⟨h, hd, hlen, hlt⟩) (inp := []) (Or.inr trivial)
    rw [List.append_nil] at this
    refine ⟨2, fun m hm => ?_⟩
    obtain ⟨k, rfl⟩ : ∃ k, m = k + 2 := ⟨m - 2, by omega⟩
    exact this k

example : (∀ b ∈ [52#8, 50#8], digitB b = true) ∧ numeral 10 decVal [52#8, 50#8] < 2 ^ 63 := by decide

/-- a comment that is not closed is read forever -/
theorem block_forever : ∀ (n l : Nat), blockL n (l + 1) [] = .oof
  | 0, _ => rfl
  | n + 1, l => block_forever n l

theorem vec_forever : ∀ (n : Nat) (acc : List W), rdVec n [] acc = .oof
  | 0, _ => rfl
  | 1, _ => rfl
  | n + 2, acc => by
    have : rd (n + 1) [] = .ok (.eof, []) := rfl
    rw [rdVec, if_neg (by simp [skipL]), show skipL false [] = [] from rfl, this, Res.ok_bind]
    exact vec_forever (n + 1) _

/-- Negation of C92: the reader does not end when the input ends inside a block comment or inside a vector. -/
theorem C92_negated_forever (n : Nat) : rd n [35#8, 124#8, 97#8] = .oof ∧ rd n [35#8, 40#8, 97#8] = .oof := by
  match n with
  | 0 => exact ⟨rfl, rfl⟩
  | 1 => exact ⟨rfl, rfl⟩
  | 2 => exact ⟨rfl, rfl⟩
  | 3 => exact ⟨by decide +kernel, by decide +kernel⟩
  | n + 4 =>
    constructor
    · rw [rd_hash, rdHash, if_neg (by decide), if_neg (by decide), if_neg (by decide), if_neg (by decide), if_neg (by decide), if_neg (by decide),
        if_neg (by decide), if_neg (by decide), if_pos rfl, block_byte (by decide) (by decide), block_forever]
      rfl
    · have h1 : rd (n + 1) [97#8] = .ok (.stx (.sym [97#8]), []) := by
        rw [rd_sym n ⟨by decide, by decide⟩ (by decide) (by decide) (by decide) (by decide) (by decide)]; decide
      rw [rd_hash, rdHash, if_neg (by decide), if_neg (by decide), if_neg (by decide), if_neg (by decide), if_pos rfl, rdVec]
      have h2 : skipL false [97#8] = [97#8] := by decide
      rw [h2, if_neg (by simp), h1, Res.ok_bind]
      simp only
      rw [vec_forever]
      rfl

/-- Negation of C92: a file that ends with a block comment has one form too many, the eof object as syntax. -/
theorem C92_negated_comment : rdFile 9 9 [35#8, 116#8, 35#8, 124#8, 124#8, 35#8] [] = .ok [.stx (.bool true), .stx .eof] := by decide +kernel

/-- Negation of C92: a quote at the end of the input is read as a quotation of the eof object instead of being reported. -/
theorem C92_negated_quote : rd 9 [39#8] = .ok (.stx (.cons (.stx (.sym quoteSym)) (.cons (.stx .eof) .null)), []) := by decide +kernel

/-! ### C93: both readers read a text as the same datum -/

/-- data that agree up to the reading of `#'` (specification) -/
inductive Agree : Dat → Dat → Prop
  | same (d : Dat) : Agree d d
  | cons {a b c d : Dat} : Agree a b → Agree c d → Agree (.cons a c) (.cons b d)
  | vec {a b : Dat} : Agree a b → Agree (.vec a) (.vec b)
  | box {a b : Dat} : Agree a b → Agree (.box a) (.box b)
  | stx {a b : Dat} : Agree a b → Agree (.cons (.sym quoteSyntaxSym) (.cons a .null)) (.cons (.sym syntaxSym) (.cons b .null))

/-- tokens that both grammars have (specification); an atom denotes the same datum in both -/
inductive Same : Rd.Tok → Tok → Prop
  | atom {s : List Byte} {d : Dat} {f : Bool} {f' : Fol} : Atom s d f' → Same (.atom s d f) (.atom s d f')
  | opn (o : Byte) : Same (.opn o) (.opn o)
  | cls (c : Byte) : Same (.cls c) (.cls c)
  | vopn : Same .vopn .vopn
  | vcls : Same .vcls (.cls 41#8)
  | dot : Same .dot .dot
  | quote : Same .quote .quote
  | squote : Same .squote .squote
  | box : Same .box .box

/-- the modes of the two grammars -/
def mode : Rd.Mode → Mode
  | .obj => .obj
  | .tail o => .tail o
  | .vec => .vec

theorem open_iff : ∀ o : Byte, Rd.isOpen o = true → o ∈ opens := by decide
theorem matching_iff : ∀ o c : Byte, Rd.matching o c = true → o ∈ opens ∧ c = closing o := by decide +kernel

theorem forall₂_split {α β : Type} {R : α → β → Prop} : ∀ {a b : List α} {c : List β}, List.Forall₂ R (a ++ b) c →
    ∃ c1 c2, c = c1 ++ c2 ∧ List.Forall₂ R a c1 ∧ List.Forall₂ R b c2
  | [], _, c, h => ⟨[], c, rfl, .nil, h⟩
  | x :: a, b, _, .cons h t => by
    obtain ⟨c1, c2, rfl, h1, h2⟩ := forall₂_split (a := a) t
    exact ⟨_ :: c1, c2, rfl, .cons h h1, h2⟩

theorem den_same {m : Rd.Mode} {ts : List Rd.Tok} {d : Dat} (h : Rd.Den m ts d) : ∀ {us : List Tok}, List.Forall₂ Same ts us →
    ∃ e, Den (mode m) us e ∧ Agree d e := by
  induction h with
  | atom _ =>
    rintro us (_ | ⟨h1, h2⟩)
    cases h2
    cases h1 with
    | atom ha => exact ⟨_, .atom ha, .same _⟩
  | quote _ ih =>
    rintro us (_ | ⟨h1, h2⟩)
    cases h1
    obtain ⟨e, he, ha⟩ := ih h2
    exact ⟨_, .quote he, .cons (.same _) (.cons ha (.same _))⟩
  | squote _ ih =>
    rintro us (_ | ⟨h1, h2⟩)
    cases h1
    obtain ⟨e, he, ha⟩ := ih h2
    exact ⟨_, .squote he, .stx ha⟩
  | box _ ih =>
    rintro us (_ | ⟨h1, h2⟩)
    cases h1
    obtain ⟨e, he, ha⟩ := ih h2
    exact ⟨_, .box he, .box ha⟩
  | list ho _ ih =>
    rintro us (_ | ⟨h1, h2⟩)
    cases h1
    obtain ⟨e, he, ha⟩ := ih h2
    exact ⟨_, .list (open_iff _ ho) he, ha⟩
  | vec _ ih =>
    rintro us (_ | ⟨h1, h2⟩)
    cases h1
    obtain ⟨e, he, ha⟩ := ih h2
    exact ⟨_, .vec he, .vec ha⟩
  | nil hm =>
    rintro us (_ | ⟨h1, h2⟩)
    cases h1
    cases h2
    obtain ⟨ho, rfl⟩ := matching_iff _ _ hm
    exact ⟨_, .nil ho, .same _⟩
  | cons _ _ ih1 ih2 =>
    intro us h
    obtain ⟨u1, u2, rfl, h1, h2⟩ := forall₂_split h
    obtain ⟨e1, he1, ha1⟩ := ih1 h1
    obtain ⟨e2, he2, ha2⟩ := ih2 h2
    exact ⟨_, .cons he1 he2, .cons ha1 ha2⟩
  | dot hm _ _ ih1 ih2 =>
    intro us h
    obtain ⟨u1, u2, rfl, h1, h2⟩ := forall₂_split h
    rcases h2 with _ | ⟨h2, h3⟩
    cases h2
    obtain ⟨u3, u4, rfl, h6, h4⟩ := forall₂_split h3
    rcases h4 with _ | ⟨h4, h5⟩
    cases h4
    cases h5
    obtain ⟨e1, he1, ha1⟩ := ih1 h1
    obtain ⟨e2, he2, ha2⟩ := ih2 h6
    obtain ⟨ho, rfl⟩ := matching_iff _ _ hm
    exact ⟨_, .dot ho he1 he2, .cons ha1 ha2⟩
  | vnil =>
    rintro us (_ | ⟨h1, h2⟩)
    cases h1
    cases h2
    exact ⟨_, .vnil, .same _⟩
  | vcons _ _ ih1 ih2 =>
    intro us h
    obtain ⟨u1, u2, rfl, h1, h2⟩ := forall₂_split h
    obtain ⟨e1, he1, ha1⟩ := ih1 h1
    obtain ⟨e2, he2, ha2⟩ := ih2 h2
    exact ⟨_, .vcons he1 he2, .cons ha1 ha2⟩

/-- C93 for texts made of tokens that both grammars have, laid out as both allow: the core reader and the library reader read the same
datum, up to `#'`, and leave the same rest.  Missing: the texts of the negations below. -/
theorem C93_partial {ts : List Rd.Tok} {us : List Tok} {d : Dat} {inp rest : List Byte} (hd : Rd.Den .obj ts d) (hs : List.Forall₂ Same ts us)
    (hl : Rd.Lay ts inp rest) (hl' : Lay us inp rest) :
    ∃ w N, Agree d (datum w) ∧ ∀ n, N ≤ n → Rd.readObj n inp = .ok (d, rest) ∧ rd n inp = .ok (w, rest) := by
  obtain ⟨e, he, ha⟩ := den_same hd hs
  obtain ⟨i1, h1, N1, hN1⟩ := Rd.read_layout (us := []) hd (by rwa [List.append_nil])
  obtain ⟨w, i2, h2, h3, N2, hN2⟩ := read_layout (us := []) he (by rwa [List.append_nil])
  cases h1
  cases h2
  refine ⟨w, N1 + N2, by rw [h3.2]; exact ha, fun n hn => ⟨hN1 n (by omega), hN2 n (by omega)⟩⟩

-- #'#(x) followed by a space
example : ∃ ts us d, Rd.Den .obj ts d ∧ List.Forall₂ Same ts us ∧ Rd.Lay ts [35#8, 39#8, 35#8, 40#8, 120#8, 41#8, 32#8] [32#8] ∧
    Lay us [35#8, 39#8, 35#8, 40#8, 120#8, 41#8, 32#8] [32#8] := by
  have h1 : Rd.Atom [120#8] (.sym [120#8]) false := .sym _ ⟨by decide, by decide, by decide, by decide, by decide, fun h => absurd h (by decide), fun h => absurd h (by decide)⟩
  have h2 : Atom [120#8] (.sym [120#8]) .delim := .sym _ ⟨by decide, fun b hb => by simp at hb; subst hb; exact ⟨by decide, by decide⟩,
    by decide, by decide, by decide, fun h => absurd h (by decide)⟩ (by decide) (by decide)
  refine ⟨[.squote, .vopn, .atom [120#8] (.sym [120#8]) false, .vcls], [.squote, .vopn, .atom [120#8] (.sym [120#8]) .delim, .cls 41#8], _,
    .squote (.vec (.vcons (.atom h1) .vnil)), .cons .squote (.cons .vopn (.cons (.atom h2) (.cons .vcls .nil))), ?_, ?_⟩
  · exact .tok (t := .squote) trivial (.tok (t := .vopn) trivial (.tok (t := .atom [120#8] (.sym [120#8]) false) (Or.inr (by decide : Rd.delimB 41#8 = true))
      (.tok (t := .vcls) (by decide : Rd.delimB 32#8 = true) (.nil _))))
  · exact .tok (t := .squote) trivial (.tok (t := .vopn) trivial (.tok (t := .atom [120#8] (.sym [120#8]) .delim) (fun b r h => by cases h; decide)
      (.tok (t := .cls 41#8) trivial (.nil _))))

/-- Negation of C93: a tab separates tokens for the core reader and belongs to the symbol for the library reader. -/
theorem C93_negated_tab : Rd.readObj 9 [97#8, 9#8, 98#8] = .ok (.sym [97#8], [9#8, 98#8]) ∧ rd 9 [97#8, 9#8, 98#8] = .ok (.stx (.sym [97#8, 9#8, 98#8]), []) := by
  decide +kernel

/-- Negation of C93: a dot in front of a parenthesis is a symbol for the core reader and makes a pair for the library reader: `(a .(b))`. -/
theorem C93_negated_dot :
    (∃ r, Rd.readObj 20 [40#8, 97#8, 32#8, 46#8, 40#8, 98#8, 41#8, 41#8] =
      .ok (.cons (.sym [97#8]) (.cons (.sym [46#8]) (.cons (.cons (.sym [98#8]) .null) .null)), r)) ∧
    ∃ w r, rd 20 [40#8, 97#8, 32#8, 46#8, 40#8, 98#8, 41#8, 41#8] = .ok (w, r) ∧ datum w = .cons (.sym [97#8]) (.cons (.sym [98#8]) .null) :=
  ⟨⟨[], by decide +kernel⟩, .stx (.cons (.stx (.sym [97#8])) (.stx (.cons (.stx (.sym [98#8])) .null))), [], by decide +kernel, by decide +kernel⟩

/-- Negation of C93: a symbol that starts with digits is spelled differently by the two readers: `1+`. -/
theorem C93_negated_symbol : Rd.readObj 9 [49#8, 43#8, 32#8] = .ok (.sym [49#8, 49#8, 43#8], [32#8]) ∧ rd 9 [49#8, 43#8, 32#8] = .ok (.stx (.sym [49#8, 43#8]), [32#8]) := by
  decide +kernel

/-- Negation of C93: the names of characters other than `space` and `newline` and the escape for a tab are errors for the library reader:
`#\tab` and `"\t"`. -/
theorem C93_negated_names :
    Rd.readObj 9 [35#8, 92#8, 116#8, 97#8, 98#8] = .ok (.char 9#8, []) ∧ rd 9 [35#8, 92#8, 116#8, 97#8, 98#8] = .err ∧
    Rd.readObj 9 [34#8, 92#8, 116#8, 34#8] = .ok (.str [9#8], []) ∧ rd 9 [34#8, 92#8, 116#8, 34#8] = .err := by
  decide +kernel

end Minim.LRd
