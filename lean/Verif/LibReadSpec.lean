import Verif.ReaderLemmas
import Verif.LibRead

set_option autoImplicit false

/-! # Specification of the grammar of the library reader: tokens, layout, data -/

namespace Minim.LRd

open Minim.Rd (Dat digitB xdigitB numeral decVal hexVal quoteSym)

/-- the delimiters: space, newline, the parentheses, the double quote and the semicolon -/
def delims : List Byte := [32#8, 10#8, 40#8, 41#8, 91#8, 93#8, 123#8, 125#8, 34#8, 59#8]

/-- the opening parentheses -/
def opens : List Byte := [40#8, 91#8, 123#8]

/-- the closing parenthesis for an opening one -/
def closing (o : Byte) : Byte := if o = 40#8 then 41#8 else if o = 91#8 then 93#8 else 125#8

/-- What must follow a token: anything, a delimiter or the end of input, or a delimiter. -/
inductive Fol where
  | free
  | delim
  | inner

/-- what may follow a token -/
def Fol.ok : Fol → List Byte → Prop
  | .free, _ => True
  | .delim, r => ∀ b r', r = b :: r' → b ∈ delims
  | .inner, r => ∃ b r', r = b :: r' ∧ b ∈ delims

/-- digits that denote a fixnum -/
def Digits (base : Nat) (p : Byte → Bool) (val : Byte → Nat) (ds : List Byte) : Prop :=
  ds ≠ [] ∧ (∀ b ∈ ds, p b = true) ∧ numeral base val ds < 2 ^ 63

/-- a character of a symbol -/
def SymChar (b : Byte) : Prop := b ∉ delims ∧ b ≠ 0#8

/-- a name that is read as a symbol: characters other than NUL and delimiters, not a dot, not starting like a number, a quote or a `#`
syntax -/
def SymOk (s : List Byte) : Prop :=
  s ≠ [46#8] ∧ (∀ b ∈ s, SymChar b) ∧
    match s with
    | [] => False
    | b :: r => digitB b = false ∧ b ≠ 39#8 ∧ b ≠ 35#8 ∧ (b = 43#8 ∨ b = 45#8 → ∀ c r', r = c :: r' → digitB c = false)

/-- the spelling of one character of a string -/
inductive Piece : List Byte → Byte → Prop
  | plain (b : Byte) : b ≠ 34#8 → b ≠ 92#8 → b ≠ 0#8 → Piece [b] b
  | nl : Piece [92#8, 110#8] 10#8
  | bs : Piece [92#8, 92#8] 92#8
  | dq : Piece [92#8, 34#8] 34#8

/-- the spelling of the characters of a string -/
inductive Pieces : List Byte → List Byte → Prop
  | nil : Pieces [] []
  | cons {p ps : List Byte} {b : Byte} {bs : List Byte} : Piece p b → Pieces ps bs → Pieces (p ++ ps) (b :: bs)

/-- the atoms: spelling, datum, and what must follow -/
inductive Atom : List Byte → Dat → Fol → Prop
  | tru : Atom [35#8, 116#8] (.bool true) .free
  | fls : Atom [35#8, 102#8] (.bool false) .free
  | dec (ds : List Byte) : Digits 10 digitB decVal ds → Atom ds (.fix (numeral 10 decVal ds)) .inner
  | neg (ds : List Byte) : Digits 10 digitB decVal ds → Atom (45#8 :: ds) (.fix (-(numeral 10 decVal ds : Int))) .inner
  | pos (ds : List Byte) : Digits 10 digitB decVal ds → Atom (43#8 :: ds) (.fix (numeral 10 decVal ds)) .inner
  | hex (ds : List Byte) : Digits 16 xdigitB hexVal ds → Atom (35#8 :: 120#8 :: ds) (.fix (numeral 16 hexVal ds)) .inner
  | hneg (ds : List Byte) : Digits 16 xdigitB hexVal ds →
      Atom (35#8 :: 120#8 :: 45#8 :: ds) (.fix (-(numeral 16 hexVal ds : Int))) .inner
  | hpos (ds : List Byte) : Digits 16 xdigitB hexVal ds → Atom (35#8 :: 120#8 :: 43#8 :: ds) (.fix (numeral 16 hexVal ds)) .inner
  | sym (s : List Byte) : SymOk s → s ≠ [43#8] → s ≠ [45#8] → Atom s (.sym s) .delim
  | plus : Atom [43#8] (.sym [43#8]) .inner
  | minus : Atom [45#8] (.sym [45#8]) .inner
  | nsym (ds : List Byte) (c : Byte) (s : List Byte) : Digits 10 digitB decVal ds → digitB c = false → SymChar c → (∀ b ∈ s, SymChar b) →
      Atom (ds ++ c :: s) (.sym (ds ++ c :: s)) .delim
  | space : Atom [35#8, 92#8, 115#8, 112#8, 97#8, 99#8, 101#8] (.char 32#8) .free
  | newline : Atom [35#8, 92#8, 110#8, 101#8, 119#8, 108#8, 105#8, 110#8, 101#8] (.char 10#8) .free
  | char (b : Byte) : Atom [35#8, 92#8, b] (.char b) .delim
  | str (ps bs : List Byte) : Pieces ps bs → Atom ([34#8] ++ (ps ++ [34#8])) (.str bs) .delim

/-- tokens -/
inductive Tok where
  | atom (s : List Byte) (d : Dat) (f : Fol)
  | opn (o : Byte)
  | cls (c : Byte)
  | vopn
  | dot
  | quote
  | squote
  | box

/-- the spelling of a token -/
def Tok.text : Tok → List Byte
  | .atom s _ _ => s
  | .opn o => [o]
  | .cls c => [c]
  | .vopn => [35#8, 40#8]
  | .dot => [46#8]
  | .quote => [39#8]
  | .squote => [35#8, 39#8]
  | .box => [35#8, 38#8]

/-- what must follow a token -/
def Tok.follow : Tok → List Byte → Prop
  | .atom _ _ f, r => f.ok r
  | .dot, r => Fol.inner.ok r
  | _, _ => True

/-- a token with which a datum can start -/
def Tok.Starts : Tok → Prop
  | .atom s d f => Atom s d f
  | .opn o => o ∈ opens
  | .vopn | .quote | .squote | .box => True
  | _ => False

/-- what a token sequence is expected to be: a datum, the rest of a list opened by `o`, the rest of a vector -/
inductive Mode where
  | obj
  | tail (o : Byte)
  | vec

/-- the datum denoted by a token sequence -/
inductive Den : Mode → List Tok → Dat → Prop
  | atom {s : List Byte} {d : Dat} {f : Fol} : Atom s d f → Den .obj [.atom s d f] d
  | quote {ts : List Tok} {d : Dat} : Den .obj ts d → Den .obj (.quote :: ts) (.cons (.sym quoteSym) (.cons d .null))
  | squote {ts : List Tok} {d : Dat} : Den .obj ts d → Den .obj (.squote :: ts) (.cons (.sym syntaxSym) (.cons d .null))
  | box {ts : List Tok} {d : Dat} : Den .obj ts d → Den .obj (.box :: ts) (.box d)
  | list {o : Byte} {ts : List Tok} {d : Dat} : o ∈ opens → Den (.tail o) ts d → Den .obj (.opn o :: ts) d
  | vec {ts : List Tok} {d : Dat} : Den .vec ts d → Den .obj (.vopn :: ts) (.vec d)
  | nil {o : Byte} : o ∈ opens → Den (.tail o) [.cls (closing o)] .null
  | cons {o : Byte} {ts us : List Tok} {d e : Dat} : Den .obj ts d → Den (.tail o) us e → Den (.tail o) (ts ++ us) (.cons d e)
  | dot {o : Byte} {ts us : List Tok} {d e : Dat} : o ∈ opens → Den .obj ts d → Den .obj us e →
      Den (.tail o) (ts ++ (.dot :: (us ++ [.cls (closing o)]))) (.cons d e)
  | vnil : Den .vec [.cls 41#8] .null
  | vcons {ts us : List Tok} {d e : Dat} : Den .obj ts d → Den .vec us e → Den .vec (ts ++ us) (.cons d e)

/-- white space and line comments -/
inductive Ws : List Byte → Prop
  | space : Ws [32#8]
  | newline : Ws [10#8]
  | line (body : List Byte) : 10#8 ∉ body → Ws (59#8 :: (body ++ [10#8]))

/-- the inside of a block comment: comments nest; a `#` is not followed by a bar and a bar not by a `#`, except for the delimiters of inner
comments; the last character may be a bar -/
inductive Blk : List Byte → Prop
  | nil : Blk []
  | byte {b : Byte} {r : List Byte} : b ≠ 35#8 → b ≠ 124#8 → Blk r → Blk (b :: r)
  | hash {b : Byte} {r : List Byte} : b ≠ 124#8 → Blk (b :: r) → Blk (35#8 :: b :: r)
  | bar {b : Byte} {r : List Byte} : b ≠ 35#8 → Blk (b :: r) → Blk (124#8 :: b :: r)
  | last : Blk [124#8]
  | nest {i r : List Byte} : Blk i → Blk r → Blk (35#8 :: 124#8 :: (i ++ (124#8 :: 35#8 :: r)))

/-- `inp` is a layout of the tokens followed by `rest`: white space and line comments in front of any token; block comments and datum
comments in front of a token that starts a datum -/
inductive Lay : List Tok → List Byte → List Byte → Prop
  | nil (rest : List Byte) : Lay [] rest rest
  | tok {t : Tok} {ts : List Tok} {inp rest : List Byte} : t.follow inp → Lay ts inp rest → Lay (t :: ts) (t.text ++ inp) rest
  | ws {t : Tok} {ts : List Tok} {w inp rest : List Byte} : Ws w → Lay (t :: ts) inp rest → Lay (t :: ts) (w ++ inp) rest
  | block {t : Tok} {ts : List Tok} {body inp rest : List Byte} : t.Starts → Blk body → Lay (t :: ts) inp rest →
      Lay (t :: ts) (35#8 :: 124#8 :: (body ++ (124#8 :: 35#8 :: inp))) rest
  | datum {t : Tok} {ts us : List Tok} {d : Dat} {inp rest : List Byte} : t.Starts → Den .obj us d → Lay (us ++ t :: ts) inp rest →
      Lay (t :: ts) (35#8 :: 59#8 :: inp) rest

/-- the rest of a file behind the last datum: white space and line comments, the last of which may lack its newline -/
inductive End : List Byte → Prop
  | nil : End []
  | ws {w r : List Byte} : Ws w → End r → End (w ++ r)
  | line (body : List Byte) : 10#8 ∉ body → End (59#8 :: body)

/-- a file of data -/
inductive File : List Tok → List Dat → Prop
  | nil : File [] []
  | cons {ts us : List Tok} {d : Dat} {ds : List Dat} : Den .obj ts d → File us ds → File (ts ++ us) (d :: ds)

end Minim.LRd
