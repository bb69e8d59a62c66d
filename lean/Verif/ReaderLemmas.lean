import Verif.Reader
import Mathlib.Data.List.Basic

set_option autoImplicit false

/-! # The grammar of data, and what the reader does on it -/

namespace Minim.Rd

/-! ### specification: tokens, layout, data -/

/-- the end of a token: end of input or a delimiter (specification) -/
def DelimStart : List Byte → Prop
  | [] => True
  | b :: _ => delimB b = true

/-- the number denoted by digits (specification) -/
def numeral (base : Nat) (val : Byte → Nat) (ds : List Byte) : Nat := ds.foldl (fun acc b => acc * base + val b) 0

/-- decimal digit (specification) -/
def decVal (b : Byte) : Nat := b.toNat - 48

/-- hexadecimal digit (specification): the letters have their position in the alphabet in the low five bits -/
def hexVal (b : Byte) : Nat := if b.toNat ≤ 57 then b.toNat - 48 else b.toNat % 32 + 9

/-- digits that denote a fixnum and fit into the token buffer (specification) -/
def Digits (base : Nat) (p : Byte → Bool) (val : Byte → Nat) (ds : List Byte) : Prop :=
  ds ≠ [] ∧ (∀ b ∈ ds, p b = true) ∧ ds.length < 4096 ∧ numeral base val ds < 2 ^ 63

/-- a name that is read as a symbol (specification): ASCII characters other than NUL and delimiters, fewer than 4096, not a dot, not
starting like a number, a quote or a `#` syntax (except `#%`) -/
def SymOk (s : List Byte) : Prop :=
  s ≠ [46#8] ∧ (∀ b ∈ s, delimB b = false ∧ b.msb = false ∧ b ≠ 0#8) ∧ s.length < 4096 ∧
    match s with
    | [] => False
    | b :: r => digitB b = false ∧ b ≠ 39#8 ∧ (b = 35#8 → ∃ r', r = 37#8 :: r') ∧
        (b = 43#8 ∨ b = 45#8 → ∀ c r', r = c :: r' → digitB c = false)

/-- the spelling of one character of a string (specification) -/
inductive Piece : List Byte → Byte → Prop
  | plain (b : Byte) : b ≠ 34#8 → b ≠ 92#8 → b ≠ 255#8 → b ≠ 0#8 → Piece [b] b
  | nl : Piece [92#8, 110#8] 10#8
  | tab : Piece [92#8, 116#8] 9#8
  | bs : Piece [92#8, 92#8] 92#8
  | sq : Piece [92#8, 39#8] 39#8
  | dq : Piece [92#8, 34#8] 34#8

/-- the spelling of the characters of a string (specification) -/
inductive Pieces : List Byte → List Byte → Prop
  | nil : Pieces [] []
  | cons {p ps : List Byte} {b : Byte} {bs : List Byte} : Piece p b → Pieces ps bs → Pieces (p ++ ps) (b :: bs)

/-- the atoms: spelling, datum, and whether the token may be followed by anything (specification) -/
inductive Atom : List Byte → Dat → Bool → Prop
  | tru : Atom [35#8, 116#8] (.bool true) true
  | fls : Atom [35#8, 102#8] (.bool false) true
  | dec (ds : List Byte) : Digits 10 digitB decVal ds → Atom ds (.fix (numeral 10 decVal ds)) false
  | neg (ds : List Byte) : Digits 10 digitB decVal ds → Atom (45#8 :: ds) (.fix (-(numeral 10 decVal ds : Int))) false
  | pos (ds : List Byte) : Digits 10 digitB decVal ds → Atom (43#8 :: ds) (.fix (numeral 10 decVal ds)) false
  | hex (ds : List Byte) : Digits 16 xdigitB hexVal ds → Atom (35#8 :: 120#8 :: ds) (.fix (numeral 16 hexVal ds)) false
  | hneg (ds : List Byte) : Digits 16 xdigitB hexVal ds →
      Atom (35#8 :: 120#8 :: 45#8 :: ds) (.fix (-(numeral 16 hexVal ds : Int))) false
  | hpos (ds : List Byte) : Digits 16 xdigitB hexVal ds → Atom (35#8 :: 120#8 :: 43#8 :: ds) (.fix (numeral 16 hexVal ds)) false
  | sym (s : List Byte) : SymOk s → Atom s (.sym s) false
  | named (e : Byte × List Byte × Byte) : e ∈ charNames → Atom (35#8 :: 92#8 :: e.1 :: e.2.1) (.char e.2.2) false
  | char (b : Byte) : b ≠ 255#8 → Atom [35#8, 92#8, b] (.char b) false
  | str (ps bs : List Byte) : Pieces ps bs → bs.length < 4096 → Atom ([34#8] ++ (ps ++ [34#8])) (.str bs) true

/-- tokens (specification) -/
inductive Tok where
  | atom (s : List Byte) (d : Dat) (free : Bool)
  | opn (o : Byte)
  | cls (c : Byte)
  | vopn
  | vcls
  | dot
  | quote
  | squote
  | box

/-- the spelling of a token -/
def Tok.text : Tok → List Byte
  | .atom s _ _ => s
  | .opn o => [o]
  | .cls c => [c]
  | .vopn => [35#8, 40#8]
  | .vcls => [41#8]
  | .dot => [46#8]
  | .quote => [39#8]
  | .squote => [35#8, 39#8]
  | .box => [35#8, 38#8]

/-- what must follow a token: a delimiter behind atoms and behind the end of a vector, white space behind a dot -/
def Tok.follow : Tok → List Byte → Prop
  | .atom _ _ free, r => free = true ∨ DelimStart r
  | .vcls, r => DelimStart r
  | .dot, r => ∃ b r', r = b :: r' ∧ spaceB b = true
  | _, _ => True

/-- a token with which a datum can start -/
def Tok.Starts : Tok → Prop
  | .atom s d f => Atom s d f
  | .opn o => isOpen o = true
  | .vopn | .quote | .squote | .box => True
  | _ => False

/-- what a token sequence is expected to be: a datum, the rest of a list opened by `o`, the rest of a vector -/
inductive Mode where
  | obj
  | tail (o : Byte)
  | vec

/-- the datum denoted by a token sequence (specification) -/
inductive Den : Mode → List Tok → Dat → Prop
  | atom {s : List Byte} {d : Dat} {f : Bool} : Atom s d f → Den .obj [.atom s d f] d
  | quote {ts : List Tok} {d : Dat} : Den .obj ts d → Den .obj (.quote :: ts) (ofList [.sym quoteSym, d])
  | squote {ts : List Tok} {d : Dat} : Den .obj ts d → Den .obj (.squote :: ts) (ofList [.sym quoteSyntaxSym, d])
  | box {ts : List Tok} {d : Dat} : Den .obj ts d → Den .obj (.box :: ts) (.box d)
  | list {o : Byte} {ts : List Tok} {d : Dat} : isOpen o = true → Den (.tail o) ts d → Den .obj (.opn o :: ts) d
  | vec {ts : List Tok} {d : Dat} : Den .vec ts d → Den .obj (.vopn :: ts) (.vec d)
  | nil {o c : Byte} : matching o c = true → Den (.tail o) [.cls c] .null
  | cons {o : Byte} {ts us : List Tok} {d e : Dat} : Den .obj ts d → Den (.tail o) us e → Den (.tail o) (ts ++ us) (.cons d e)
  | dot {o c : Byte} {ts us : List Tok} {d e : Dat} : matching o c = true → Den .obj ts d → Den .obj us e →
      Den (.tail o) (ts ++ (.dot :: (us ++ [.cls c]))) (.cons d e)
  | vnil : Den .vec [.vcls] .null
  | vcons {ts us : List Tok} {d e : Dat} : Den .obj ts d → Den .vec us e → Den .vec (ts ++ us) (.cons d e)

/-- white space and line comments (specification) -/
inductive Ws : List Byte → Prop
  | space (b : Byte) : spaceB b = true → Ws [b]
  | line (body : List Byte) : 10#8 ∉ body → Ws (59#8 :: (body ++ [10#8]))

/-- the inside of a block comment (specification): comments nest; a `#` or `|` that does not belong to a delimiter of a comment is followed
by something else than `#` and `|` -/
inductive Blk : List Byte → Prop
  | nil : Blk []
  | byte {b : Byte} {r : List Byte} : b ≠ 35#8 → b ≠ 124#8 → b ≠ 255#8 → Blk r → Blk (b :: r)
  | hash {a b : Byte} {r : List Byte} : a = 35#8 ∨ a = 124#8 → b ≠ 35#8 → b ≠ 124#8 → b ≠ 255#8 → Blk r → Blk (a :: b :: r)
  | nest {i r : List Byte} : Blk i → Blk r → Blk (35#8 :: 124#8 :: (i ++ (124#8 :: 35#8 :: r)))

/-- `inp` is a layout of the tokens followed by `rest` (specification): white space and line comments in front of any token; block
comments and datum comments in front of a token that starts a datum -/
inductive Lay : List Tok → List Byte → List Byte → Prop
  | nil (rest : List Byte) : Lay [] rest rest
  | tok {t : Tok} {ts : List Tok} {inp rest : List Byte} : t.follow inp → Lay ts inp rest → Lay (t :: ts) (t.text ++ inp) rest
  | ws {t : Tok} {ts : List Tok} {w inp rest : List Byte} : Ws w → Lay (t :: ts) inp rest → Lay (t :: ts) (w ++ inp) rest
  | block {t : Tok} {ts : List Tok} {body inp rest : List Byte} : t.Starts → Blk body → Lay (t :: ts) inp rest →
      Lay (t :: ts) (35#8 :: 124#8 :: (body ++ (124#8 :: 35#8 :: inp))) rest
  | datum {t : Tok} {ts us : List Tok} {d : Dat} {inp rest : List Byte} : t.Starts → Den .obj us d → Lay (us ++ t :: ts) inp rest →
      Lay (t :: ts) (35#8 :: 59#8 :: inp) rest

/-! ### bytes -/

theorem chr_ne {b : Byte} (h : b ≠ 255#8) : chr (some b) = some b := by
  unfold chr; split
  · rename_i e; exact absurd (by simpa using e) h
  · rfl

theorem msb_ne : ∀ b : Byte, b.msb = false → b ≠ 255#8 := by decide
theorem delim_msb : ∀ b : Byte, delimB b = true → b.msb = false := by decide
theorem space_delim : ∀ b : Byte, spaceB b = true → delimB b = true := by decide
theorem digit_facts : ∀ b : Byte, digitB b = true → b.msb = false ∧ delimB b = false ∧ spaceB b = false ∧ b ≠ 59#8 ∧ b ≠ 35#8 ∧ isOpen b = false ∧
    b ≠ 39#8 ∧ isClose b = false ∧ b ≠ 46#8 ∧ b ≠ 45#8 ∧ b ≠ 43#8 ∧ b ≠ 0#8 := by decide
theorem xdigit_facts : ∀ b : Byte, xdigitB b = true → b.msb = false ∧ delimB b = false ∧ b ≠ 45#8 ∧ b ≠ 43#8 ∧ xval b = hexVal b := by decide
theorem delim_not_digit : ∀ b : Byte, delimB b = true → digitB b = false ∧ xdigitB b = false := by decide
theorem nondelim_facts : ∀ b : Byte, delimB b = false → spaceB b = false ∧ b ≠ 59#8 ∧ isOpen b = false ∧ isClose b = false ∧ b ≠ 34#8 := by decide
theorem open_facts : ∀ b : Byte, isOpen b = true → spaceB b = false ∧ b ≠ 59#8 ∧ b ≠ 35#8 ∧ isClose b = false ∧ b ≠ 46#8 ∧ b ≠ 255#8 := by decide
theorem matching_facts : ∀ o c : Byte, matching o c = true → isClose c = true ∧ isOpen o = true := by decide +kernel
theorem close_facts : ∀ b : Byte, isClose b = true → spaceB b = false ∧ b ≠ 59#8 ∧ b ≠ 46#8 ∧ b ≠ 255#8 := by decide

theorem ctype_ok {p : Byte → Bool} {e : Bool} {b : Byte} (h : b.msb = false) : ctype p e (some b) = .ok (p b) := by
  simp [ctype, h]

theorem delimC_some {b : Byte} (h : b.msb = false) : delimC (some b) = .ok (delimB b) := ctype_ok h

theorem expectDelim_ok {r : List Byte} (h : DelimStart r) : expectDelim r = .ok () := by
  cases r with
  | nil => rfl
  | cons b r =>
    have hm := delim_msb b h
    simp only [expectDelim, peek, getc]
    rw [chr_ne (msb_ne b hm), delimC_some hm, show delimB b = true from h]
    rfl

/-! ### white space -/

theorem skip_line (body inp : List Byte) (h : 10#8 ∉ body) : skip true (body ++ 10#8 :: inp) = skip false inp := by
  induction body with
  | nil => simp [skip]
  | cons b body ih =>
    have h1 : b ≠ 10#8 := fun e => h (by simp [e])
    rw [List.cons_append, skip, if_neg h1, ih (fun e => h (by simp [e]))]

theorem skip_ws {w : List Byte} (h : Ws w) (inp : List Byte) : skip false (w ++ inp) = skip false inp := by
  cases h with
  | space b hb => simp [skip, hb]
  | line body hb =>
    have : spaceB 59#8 = false := by decide
    rw [List.cons_append, skip, this]
    simp only [Bool.false_eq_true, if_false, if_true, List.append_assoc, List.singleton_append]
    exact skip_line body inp hb

theorem skip_stop {b : Byte} (h1 : spaceB b = false) (h2 : b ≠ 59#8) (r : List Byte) : skip false (b :: r) = b :: r := by
  rw [skip, h1]; simp [h2]

theorem skip_idem : ∀ (f : Bool) (inp : List Byte), skip false (skip f inp) = skip f inp
  | _, [] => by cases ‹Bool› <;> rfl
  | false, b :: r => by
    rw [skip]
    split
    · exact skip_idem false r
    · split
      · exact skip_idem true r
      · rw [skip_stop (by simpa using ‹¬ spaceB b = true›) ‹_›]
  | true, b :: r => by
    rw [skip]
    split
    · exact skip_idem false r
    · exact skip_idem true r

theorem skip_length : ∀ (f : Bool) (inp : List Byte), (skip f inp).length ≤ inp.length
  | _, [] => by cases ‹Bool› <;> simp [skip]
  | false, b :: r => by
    have h1 := skip_length false r
    have h2 := skip_length true r
    rw [skip]
    split
    · simp; omega
    · split
      · simp; omega
      · simp
  | true, b :: r => by
    have h1 := skip_length false r
    have h2 := skip_length true r
    rw [skip]
    split <;> (simp; omega)

theorem readObj_skip (n : Nat) (inp : List Byte) : readObj n (skip false inp) = readObj n inp := by
  cases n with
  | zero => rfl
  | succ n => rw [readObj, readObj, skip_idem]

theorem readVec_skip (n : Nat) (inp : List Byte) (acc : List Dat) : readVec n (skip false inp) acc = readVec n inp acc := by
  cases n with
  | zero => rfl
  | succ n => rw [readVec, readVec, skip_idem]

/-! ### block comments -/

theorem notEof_ok {b : Byte} (h : b ≠ 255#8) : notEof (some b) = .ok () := by
  simp [notEof, chr_ne h]

theorem block_byte {b : Byte} (h1 : b ≠ 35#8) (h2 : b ≠ 124#8) (h3 : b ≠ 255#8) (l : Nat) (r : List Byte) :
    blockLoop (l + 1) (b :: r) = blockLoop (l + 1) r := by
  rw [blockLoop.eq_def]
  simp only [h1, h2, if_false, notEof_ok h3, Res.ok_bind]

theorem block_hash {b : Byte} (h3 : b ≠ 255#8) (l : Nat) (r : List Byte) :
    blockLoop (l + 1) (35#8 :: b :: r) = blockLoop (if b = 124#8 then l + 2 else l + 1) r := by
  rw [blockLoop.eq_def]
  simp only [if_true, notEof_ok h3, notEof_ok (b := 35#8) (by decide), Res.ok_bind]

theorem block_bar {b : Byte} (h3 : b ≠ 255#8) (l : Nat) (r : List Byte) :
    blockLoop (l + 1) (124#8 :: b :: r) = blockLoop (if b = 35#8 then l else l + 1) r := by
  rw [blockLoop.eq_def]
  simp only [if_true, notEof_ok h3, notEof_ok (b := 124#8) (by decide), Res.ok_bind, if_neg (show ¬ (124#8 : Byte) = 35#8 by decide)]

theorem blockLoop_blk {body : List Byte} (h : Blk body) : ∀ (l : Nat) (inp : List Byte), blockLoop (l + 1) (body ++ inp) = blockLoop (l + 1) inp := by
  induction h with
  | nil => intro l inp; rfl
  | byte h1 h2 h3 _ ih =>
    intro l inp
    rw [List.cons_append, block_byte h1 h2 h3, ih]
  | hash ha h1 h2 h3 _ ih =>
    intro l inp
    rcases ha with rfl | rfl
    · rw [List.cons_append, List.cons_append, block_hash h3, if_neg h2, ih]
    · rw [List.cons_append, List.cons_append, block_bar h3, if_neg h1, ih]
  | nest _ _ ih1 ih2 =>
    intro l inp
    rw [List.cons_append, List.cons_append, List.append_assoc, block_hash (by decide), if_pos rfl, ih1, List.cons_append, List.cons_append,
      block_bar (by decide), if_pos rfl, ih2]

theorem blockLoop_end {body : List Byte} (h : Blk body) (inp : List Byte) : blockLoop 1 (body ++ (124#8 :: 35#8 :: inp)) = .ok inp := by
  rw [blockLoop_blk h 0, block_bar (by decide), if_pos rfl, blockLoop]

/-! ### atoms -/

theorem symLoop_ok : ∀ (s buf : List Byte) (b : Byte) (inp : List Byte), (∀ x ∈ b :: s, delimB x = false ∧ x.msb = false) → DelimStart inp →
    buf.length + s.length + 1 < 4096 → symLoop buf (some b) (s ++ inp) = .ok (.sym (cstr (buf ++ b :: s)), inp) := by
  intro s
  induction s with
  | nil =>
    intro buf b inp hb hd hl
    have h1 := hb b (by simp)
    simp only [List.length_nil] at hl
    have hp : push buf b = .ok (buf ++ [b]) := by rw [push, if_neg (by unfold maxLen; omega)]
    cases inp with
    | nil =>
      rw [List.append_nil, symLoop, delimC_some h1.2, h1.1, Res.ok_bind]
      simp only
      rw [hp, Res.ok_bind, symEnd, if_pos (by simp [maxLen]; omega)]; rfl
    | cons x r =>
      have hx := delim_msb x hd
      rw [List.nil_append, symLoop, delimC_some h1.2, h1.1, Res.ok_bind]
      simp only
      rw [hp, Res.ok_bind, chr_ne (msb_ne x hx)]
      have hd' : delimB x = true := hd
      cases r <;> rw [symLoop, delimC_some hx, hd', Res.ok_bind] <;> simp only <;>
        rw [symEnd, if_pos (by simp [maxLen]; omega)] <;> rfl
  | cons y s ih =>
    intro buf b inp hb hd hl
    have h1 := hb b (by simp)
    have hy := hb y (by simp)
    simp only [List.length_cons] at hl
    rw [List.cons_append, symLoop, delimC_some h1.2, h1.1, Res.ok_bind]
    simp only
    rw [push, if_neg (by unfold maxLen; omega), Res.ok_bind, chr_ne (msb_ne y hy.2),
      ih (buf ++ [b]) y inp (fun x hx => hb x (by simp at hx ⊢; tauto)) hd (by simp; omega)]
    simp

theorem foldl_ge (base : Nat) (val : Byte → Nat) (hb : 1 ≤ base) : ∀ (ds : List Byte) (acc : Nat), acc ≤ ds.foldl (fun acc b => acc * base + val b) acc
  | [], acc => Nat.le_refl _
  | d :: ds, acc => by
    rw [List.foldl_cons]
    refine Nat.le_trans ?_ (foldl_ge base val hb ds _)
    calc acc = acc * 1 := by simp
      _ ≤ acc * base := Nat.mul_le_mul_left acc hb
      _ ≤ _ := Nat.le_add_right _ _

theorem digLoop_ok (base : Nat) (p : Byte → Bool) (val val' : Byte → Nat) (hbase : 1 ≤ base)
    (hp : ∀ b, p b = true → b.msb = false ∧ val b = val' b) (hdel : ∀ b, delimB b = true → p b = false) :
    ∀ (ds buf : List Byte) (num : Nat) (inp : List Byte), (∀ b ∈ ds, p b = true) → DelimStart inp → buf.length + ds.length ≤ 4096 →
      ds.foldl (fun acc b => acc * base + val' b) num < 2 ^ 63 →
      ∃ buf' c r, digLoop base p val buf num (ds ++ inp) = .ok (buf', ds.foldl (fun acc b => acc * base + val' b) num, c, r) ∧
        delimC c = .ok true ∧ ungetc c r = inp := by
  intro ds
  induction ds with
  | nil =>
    intro buf num inp _ hd _ _
    cases inp with
    | nil => exact ⟨buf, none, [], rfl, rfl, rfl⟩
    | cons x r =>
      have hx := delim_msb x hd
      refine ⟨buf, some x, r, ?_, ?_, rfl⟩
      · rw [List.nil_append, digLoop, chr_ne (msb_ne x hx), ctype_ok hx, hdel x hd]; rfl
      · rw [delimC_some hx, show delimB x = true from hd]
  | cons d ds ih =>
    intro buf num inp hds hd hl hv
    have h1 := hp d (hds d (by simp))
    rw [List.foldl_cons] at hv
    simp only [List.length_cons] at hl
    have hle := foldl_ge base val' hbase ds (num * base + val' d)
    obtain ⟨buf', c, r, e1, e2, e3⟩ := ih (buf ++ [d]) (num * base + val' d) inp (fun b hb => hds b (by simp [hb])) hd
      (by simp; omega) hv
    refine ⟨buf', c, r, ?_, e2, e3⟩
    rw [List.cons_append, digLoop, chr_ne (msb_ne d h1.1), ctype_ok h1.1, hds d (by simp), Res.ok_bind, if_pos rfl, poke, if_neg (by unfold maxLen; omega), Res.ok_bind,
      h1.2, if_neg (by unfold maxFix; omega), e1]
    rfl

/-- reading a number, by the sign or first digit that has been read already -/
theorem readNum_ok (base : Nat) (p : Byte → Bool) (val val' : Byte → Nat) (hbase : 1 ≤ base)
    (hp : ∀ b, p b = true → b.msb = false ∧ val b = val' b) (hdel : ∀ b, delimB b = true → p b = false)
    (hs : ∀ b, p b = true → b ≠ 45#8 ∧ b ≠ 43#8) {ds : List Byte} (h : Digits base p val' ds)
    {inp : List Byte} (hd : DelimStart inp) :
    readNum base p val (some 45#8) (ds ++ inp) = .ok (.fix (-(numeral base val' ds : Int)), inp) ∧
    readNum base p val (some 43#8) (ds ++ inp) = .ok (.fix (numeral base val' ds), inp) ∧
    ∀ b r, ds = b :: r → readNum base p val (some b) (r ++ inp) = .ok (.fix (numeral base val' ds), inp) := by
  obtain ⟨hne, hall, hlen, hval⟩ := h
  have key := fun (buf : List Byte) (hb : buf.length ≤ 1) =>
    digLoop_ok base p val val' hbase hp hdel ds buf 0 inp hall hd (by omega) hval
  refine ⟨?_, ?_, ?_⟩
  · obtain ⟨buf', c, r, e1, e2, e3⟩ := key [45#8] (by simp)
    rw [readNum, if_pos rfl, poke, if_neg (by simp [maxLen]), Res.ok_bind]
    simp only [true_or, if_true, List.nil_append]
    rw [e1]
    simp only [Res.ok_bind]
    rw [e2]
    simp only [Res.ok_bind, if_true, Res.pure_eq]
    rw [e3]; rfl
  · obtain ⟨buf', c, r, e1, e2, e3⟩ := key [] (by simp)
    rw [readNum, if_neg (by decide), if_pos rfl, Res.ok_bind]
    simp only [or_true, if_true]
    rw [e1]
    simp only [Res.ok_bind]
    rw [e2]
    simp only [Res.ok_bind, if_true, Res.pure_eq]
    rw [e3, if_neg (by decide)]; rfl
  · rintro b r rfl
    obtain ⟨buf', c, r', e1, e2, e3⟩ := key [b] (by simp)
    have hb := hs b (hall b (by simp))
    have h45 : ¬ (some b : Ci) = some 45#8 := by simpa using hb.1
    have h43 : ¬ (some b : Ci) = some 43#8 := by simpa using hb.2
    rw [readNum, if_neg h45, if_neg h43, poke, if_neg (by simp [maxLen]), Res.ok_bind]
    simp only [h45, h43, or_self, if_false, Option.getD_some, List.nil_append]
    rw [List.cons_append] at e1
    rw [show ungetc (some b) (r ++ inp) = b :: (r ++ inp) from rfl, e1]
    simp only [Res.ok_bind]
    rw [e2]
    simp only [Res.ok_bind, if_true, Res.pure_eq]
    rw [e3]; rfl

theorem piece_ne_zero {p : List Byte} {b : Byte} (h : Piece p b) : b ≠ 0#8 := by
  cases h <;> first | assumption | decide

theorem pieces_ne_zero {ps bs : List Byte} (h : Pieces ps bs) : ∀ b ∈ bs, b ≠ 0#8 := by
  induction h with
  | nil => simp
  | cons hp _ ih =>
    intro b hb
    rcases List.mem_cons.1 hb with rfl | hb
    · exact piece_ne_zero hp
    · exact ih b hb

theorem strLoop_quote (buf r : List Byte) : strLoop buf (34#8 :: r) = if buf.length < maxLen then .ok (.str (cstr buf), r) else .ub := by
  rw [strLoop.eq_def]; simp only [if_true]

theorem strLoop_plain {x : Byte} (h1 : x ≠ 34#8) (h2 : x ≠ 92#8) (h3 : x ≠ 255#8) (buf r : List Byte) :
    strLoop buf (x :: r) = (push buf x >>= fun buf' => strLoop buf' r) := by
  rw [strLoop.eq_def]; simp only [h1, h2, if_false, notEof_ok h3, Res.ok_bind]

theorem strLoop_escape (buf r : List Byte) (y : Byte) :
    strLoop buf (92#8 :: y :: r) = (escape (chr (some y)) >>= fun b => push buf b >>= fun buf' => strLoop buf' r) := by
  rw [strLoop.eq_def]
  simp only [if_neg (show ¬ (92#8 : Byte) = 34#8 by decide), if_true, notEof_ok (b := 92#8) (by decide), Res.ok_bind]

theorem strLoop_ok {ps bs : List Byte} (h : Pieces ps bs) : ∀ (buf inp : List Byte), buf.length + bs.length < 4096 →
    strLoop buf (ps ++ (34#8 :: inp)) = .ok (.str (cstr (buf ++ bs)), inp) := by
  induction h with
  | nil =>
    intro buf inp hl
    rw [List.nil_append, strLoop_quote, if_pos (by simp at hl; exact hl)]; simp
  | @cons p ps b bs hp _ ih =>
    intro buf inp hl
    simp only [List.length_cons] at hl
    have hpush : push buf b = .ok (buf ++ [b]) := by rw [push, if_neg (by unfold maxLen; omega)]
    have ih' := ih (buf ++ [b]) inp (by simp; omega)
    rw [List.append_assoc, List.singleton_append] at ih'
    have esc : ∀ y, escape (chr (some y)) = .ok b → strLoop buf (92#8 :: y :: (ps ++ 34#8 :: inp)) = .ok (.str (cstr (buf ++ b :: bs)), inp) := by
      intro y hy
      rw [strLoop_escape, hy, Res.ok_bind, hpush, Res.ok_bind, ih']
    cases hp with
    | plain _ h1 h2 h3 h4 =>
      rw [List.singleton_append, List.cons_append, strLoop_plain h1 h2 h3, hpush, Res.ok_bind, ih']
    | nl => exact esc _ (by decide)
    | tab => exact esc _ (by decide)
    | bs => exact esc _ (by decide)
    | sq => exact esc _ (by decide)
    | dq => exact esc _ (by decide)

theorem readNamed_ok : ∀ (s inp : List Byte), readNamed s (s ++ inp) = .ok inp
  | [], inp => rfl
  | b :: s, inp => by rw [List.cons_append, readNamed, getc, if_pos rfl]; exact readNamed_ok s inp

theorem named_facts : ∀ e ∈ charNames, e.1 ≠ 255#8 ∧ e.2.1 ≠ [] ∧
    findName (some e.1) e.2.1.head? = some (e.2.1, e.2.2) := by decide

theorem readChar_named {e : Byte × List Byte × Byte} (h : e ∈ charNames) {inp : List Byte} (hd : DelimStart inp) :
    readChar (e.1 :: (e.2.1 ++ inp)) = .ok (e.2.2, inp) := by
  obtain ⟨h1, h0, h2⟩ := named_facts e h
  obtain ⟨x, r, hx⟩ := List.exists_cons_of_ne_nil h0
  have hp : peek (e.2.1 ++ inp) = e.2.1.head? := by rw [hx]; rfl
  simp only [readChar]
  rw [notEof_ok h1, Res.ok_bind, hp, h2]
  simp only
  rw [readNamed_ok, Res.ok_bind, expectDelim_ok hd]; rfl

theorem findName_delim (b : Byte) : findName (some b) none = none ∧ ∀ x, delimB x = true → findName (some b) (some x) = none := by
  have key : ∀ e ∈ charNames, e.2.1.head? ≠ none ∧ ∀ x, e.2.1.head? = some x → delimB x = false := by decide +kernel
  constructor
  · simp only [findName, Option.map_eq_none_iff, List.find?_eq_none]
    intro e he hc
    simp only [Bool.and_eq_true, beq_iff_eq] at hc
    exact (key e he).1 hc.2.symm
  · intro x hx
    simp only [findName, Option.map_eq_none_iff, List.find?_eq_none]
    intro e he hc
    simp only [Bool.and_eq_true, beq_iff_eq] at hc
    rw [(key e he).2 x hc.2.symm] at hx; cases hx

theorem readChar_byte {b : Byte} (h : b ≠ 255#8) {inp : List Byte} (hd : DelimStart inp) : readChar (b :: inp) = .ok (b, inp) := by
  have hf : findName (some b) (peek inp) = none := by
    cases inp with
    | nil => exact (findName_delim b).1
    | cons x r => exact (findName_delim b).2 x hd
  simp only [readChar]
  rw [notEof_ok h, Res.ok_bind, hf]
  simp only
  rw [expectDelim_ok hd]; rfl

theorem dec_params : (∀ b, digitB b = true → b.msb = false ∧ (fun b : Byte => b.toNat - 48) b = decVal b) ∧
    (∀ b, delimB b = true → digitB b = false) ∧ ∀ b, digitB b = true → b ≠ 45#8 ∧ b ≠ 43#8 :=
  ⟨fun b h => ⟨(digit_facts b h).1, rfl⟩, fun b h => (delim_not_digit b h).1, fun b h => ⟨(digit_facts b h).2.2.2.2.2.2.2.2.2.1,
    (digit_facts b h).2.2.2.2.2.2.2.2.2.2.1⟩⟩

theorem hex_params : (∀ b, xdigitB b = true → b.msb = false ∧ xval b = hexVal b) ∧
    (∀ b, delimB b = true → xdigitB b = false) ∧ ∀ b, xdigitB b = true → b ≠ 45#8 ∧ b ≠ 43#8 :=
  ⟨fun b h => ⟨(xdigit_facts b h).1, (xdigit_facts b h).2.2.2.2⟩, fun b h => (delim_not_digit b h).2,
    fun b h => ⟨(xdigit_facts b h).2.2.1, (xdigit_facts b h).2.2.2.1⟩⟩

/-- a text starting with an ordinary character is an atom -/
theorem readObj_atom {x : Byte} (h1 : spaceB x = false) (h2 : x ≠ 59#8) (h3 : x ≠ 35#8) (h4 : isOpen x = false) (h5 : x ≠ 39#8)
    (h6 : x ≠ 255#8) (n : Nat) (r : List Byte) : readObj (n + 1) (x :: r) = readAtom (some x) r := by
  rw [readObj, skip_stop h1 h2]
  simp only
  rw [if_neg h3, h4]
  simp only [Bool.false_eq_true, if_false]
  rw [if_neg h5, chr_ne h6]

theorem readObj_hash (n : Nat) (r : List Byte) : readObj (n + 1) (35#8 :: r) = readHash n r := by
  rw [readObj, skip_stop (by decide) (by decide)]
  simp only [if_true]

theorem read_atom {s : List Byte} {d : Dat} {f : Bool} (h : Atom s d f) {inp : List Byte} (hf : f = true ∨ DelimStart inp) (n : Nat) :
    readObj (n + 2) (s ++ inp) = .ok (d, inp) := by
  have sign : ∀ (x : Byte) (ds : List Byte), (x = 45#8 ∨ x = 43#8) → Digits 10 digitB decVal ds →
      readAtom (some x) (ds ++ inp) = readNum 10 digitB (fun b => b.toNat - 48) (some x) (ds ++ inp) := by
    intro x ds hx hd
    obtain ⟨hne, hall, _, _⟩ := hd
    obtain ⟨b, r, rfl⟩ := List.exists_cons_of_ne_nil hne
    have hb := hall b (by simp)
    have hpk : peekIs digitB (b :: r ++ inp) = true := hb
    have hxm : x.msb = false := by rcases hx with rfl | rfl <;> decide
    have hxs : (some x == some 45#8 || some x == some 43#8) = true := by rcases hx with rfl | rfl <;> decide
    rw [readAtom, ctype_ok hxm, Res.ok_bind, if_pos]
    rw [hxs, Bool.true_and, hpk, Bool.or_true]
  cases h with
  | tru =>
    rw [List.cons_append, readObj_hash, List.singleton_append, readHash, if_neg (by decide), if_pos rfl]
  | fls =>
    rw [List.cons_append, readObj_hash, List.singleton_append, readHash, if_neg (by decide), if_neg (by decide), if_pos rfl]
  | dec ds hd =>
    have hdl : DelimStart inp := by simpa using hf
    have hr := (readNum_ok 10 digitB (fun b => b.toNat - 48) decVal (by omega) dec_params.1 dec_params.2.1 dec_params.2.2 hd hdl).2.2
    obtain ⟨hne, hall, _, _⟩ := hd
    obtain ⟨b, r, rfl⟩ := List.exists_cons_of_ne_nil hne
    have hb := digit_facts b (hall b (by simp))
    rw [List.cons_append, readObj_atom hb.2.2.1 hb.2.2.2.1 hb.2.2.2.2.1 hb.2.2.2.2.2.1 hb.2.2.2.2.2.2.1 (msb_ne b hb.1), readAtom, ctype_ok hb.1,
      hall b (by simp), Res.ok_bind, if_pos (by simp)]
    exact hr b r rfl
  | neg ds hd =>
    have hdl : DelimStart inp := by simpa using hf
    have hr := (readNum_ok 10 digitB (fun b => b.toNat - 48) decVal (by omega) dec_params.1 dec_params.2.1 dec_params.2.2 hd hdl).1
    rw [List.cons_append, readObj_atom (by decide) (by decide) (by decide) (by decide) (by decide) (by decide), sign _ _ (Or.inl rfl) hd]
    exact hr
  | pos ds hd =>
    have hdl : DelimStart inp := by simpa using hf
    have hr := (readNum_ok 10 digitB (fun b => b.toNat - 48) decVal (by omega) dec_params.1 dec_params.2.1 dec_params.2.2 hd hdl).2.1
    rw [List.cons_append, readObj_atom (by decide) (by decide) (by decide) (by decide) (by decide) (by decide), sign _ _ (Or.inr rfl) hd]
    exact hr
  | hex ds hd =>
    have hdl : DelimStart inp := by simpa using hf
    have hr := (readNum_ok 16 xdigitB xval hexVal (by omega) hex_params.1 hex_params.2.1 hex_params.2.2 hd hdl).2.2
    obtain ⟨hne, hall, _, _⟩ := hd
    obtain ⟨b, r, rfl⟩ := List.exists_cons_of_ne_nil hne
    have hb := xdigit_facts b (hall b (by simp))
    rw [List.cons_append, List.cons_append, readObj_hash, readHash, if_neg (by decide), if_neg (by decide), if_neg (by decide), if_neg (by decide),
      if_neg (by decide), if_neg (by decide), if_neg (by decide), if_pos rfl]
    simp only [List.cons_append, getc]
    rw [chr_ne (msb_ne b hb.1)]
    exact hr b r rfl
  | hneg ds hd =>
    have hdl : DelimStart inp := by simpa using hf
    have hr := (readNum_ok 16 xdigitB xval hexVal (by omega) hex_params.1 hex_params.2.1 hex_params.2.2 hd hdl).1
    rw [List.cons_append, List.cons_append, readObj_hash, readHash, if_neg (by decide), if_neg (by decide), if_neg (by decide), if_neg (by decide),
      if_neg (by decide), if_neg (by decide), if_neg (by decide), if_pos rfl]
    simp only [List.cons_append, getc]
    rw [chr_ne (by decide)]
    exact hr
  | hpos ds hd =>
    have hdl : DelimStart inp := by simpa using hf
    have hr := (readNum_ok 16 xdigitB xval hexVal (by omega) hex_params.1 hex_params.2.1 hex_params.2.2 hd hdl).2.1
    rw [List.cons_append, List.cons_append, readObj_hash, readHash, if_neg (by decide), if_neg (by decide), if_neg (by decide), if_neg (by decide),
      if_neg (by decide), if_neg (by decide), if_neg (by decide), if_pos rfl]
    simp only [List.cons_append, getc]
    rw [chr_ne (by decide)]
    exact hr
  | sym s hs =>
    have hdl : DelimStart inp := by simpa using hf
    obtain ⟨hdot, hall, hlen, hfirst⟩ := hs
    cases s with
    | nil => exact hfirst.elim
    | cons b r =>
      obtain ⟨hdg, hq, hh, hsgn⟩ := hfirst
      have hb := hall b (by simp)
      have hnd := nondelim_facts b hb.1
      have hz : cstr ([] ++ b :: r) = b :: r := cstr_eq_self (fun x hx => (hall x hx).2.2)
      have hloop := symLoop_ok r [] b inp (fun x hx => ⟨(hall x hx).1, (hall x hx).2.1⟩) hdl (by simp at hlen ⊢; omega)
      rw [hz] at hloop
      by_cases hb35 : b = 35#8
      · obtain ⟨r', rfl⟩ := hh hb35
        subst hb35
        rw [List.cons_append, readObj_hash, List.cons_append, readHash, if_pos rfl]
        exact hloop
      · rw [List.cons_append, readObj_atom hnd.1 hnd.2.1 hb35 hnd.2.2.1 hq (msb_ne b hb.2.1), readAtom, ctype_ok hb.2.1, hdg, Res.ok_bind]
        have hc : (false || ((some b == some 45#8 || some b == some 43#8) && peekIs digitB (r ++ inp))) = false := by
          rw [Bool.false_or]
          by_cases hs : b = 43#8 ∨ b = 45#8
          · have : peekIs digitB (r ++ inp) = false := by
              cases r with
              | nil =>
                cases inp with
                | nil => rfl
                | cons y ys => exact (delim_not_digit y hdl).1
              | cons y ys => exact hsgn hs y ys rfl
            rw [this, Bool.and_false]
          · have h1 : (some b == some 45#8) = false := by simp; tauto
            have h2 : (some b == some 43#8) = false := by simp; tauto
            rw [h1, h2]; rfl
        rw [hc]
        simp only [Bool.false_eq_true, if_false]
        rw [if_neg (by simpa using hnd.2.2.2.2), delimC_some hb.2.1, hb.1, Res.ok_bind]
        simp only [Bool.not_false, if_true]
        exact hloop
  | named e he =>
    have hdl : DelimStart inp := by simpa using hf
    rw [List.cons_append, readObj_hash, List.cons_append, List.cons_append, readHash, if_neg (by decide), if_neg (by decide), if_neg (by decide), if_pos rfl,
      readChar_named he hdl]
    rfl
  | char b hb =>
    have hdl : DelimStart inp := by simpa using hf
    rw [List.cons_append, readObj_hash, List.cons_append, List.singleton_append, readHash, if_neg (by decide), if_neg (by decide), if_neg (by decide),
      if_pos rfl, readChar_byte hb hdl]
    rfl
  | str ps bs hp hl =>
    rw [List.append_assoc, List.singleton_append, readObj_atom (by decide) (by decide) (by decide) (by decide) (by decide) (by decide), readAtom,
      ctype_ok (by decide), Res.ok_bind, if_neg (by simp [digitB]), if_pos rfl, List.append_assoc, List.singleton_append, strLoop_ok hp [] inp (by simpa using hl)]
    rw [List.nil_append, cstr_eq_self (pieces_ne_zero hp)]

/-! ### tokens in a layout -/

theorem atom_start {s : List Byte} {d : Dat} {f : Bool} (h : Atom s d f) :
    ∃ x r, s = x :: r ∧ spaceB x = false ∧ x ≠ 59#8 ∧ isClose x = false ∧ x ≠ 255#8 ∧
      (x = 46#8 → ∃ y r', r = y :: r' ∧ spaceB y = false) := by
  cases h with
  | dec ds hd =>
    obtain ⟨hne, hall, _, _⟩ := hd
    obtain ⟨b, r, rfl⟩ := List.exists_cons_of_ne_nil hne
    have hb := digit_facts b (hall b (by simp))
    exact ⟨b, r, rfl, hb.2.2.1, hb.2.2.2.1, hb.2.2.2.2.2.2.2.1, msb_ne b hb.1, fun e => absurd e hb.2.2.2.2.2.2.2.2.1⟩
  | sym s hs =>
    obtain ⟨hdot, hall, _, hfirst⟩ := hs
    cases s with
    | nil => exact hfirst.elim
    | cons b r =>
      have hb := hall b (by simp)
      have hn := nondelim_facts b hb.1
      refine ⟨b, r, rfl, hn.1, hn.2.1, hn.2.2.2.1, msb_ne b hb.2.1, fun e => ?_⟩
      cases r with
      | nil => exact absurd (by rw [e]) hdot
      | cons y r' => exact ⟨y, r', rfl, (nondelim_facts y (hall y (by simp)).1).1⟩
  | str ps bs hp hl => exact ⟨34#8, ps ++ [34#8], rfl, by decide, by decide, by decide, by decide, fun e => absurd e (by decide)⟩
  | neg ds _ => exact ⟨_, _, rfl, by decide, by decide, by decide, by decide, fun e => absurd e (by decide)⟩
  | pos ds _ => exact ⟨_, _, rfl, by decide, by decide, by decide, by decide, fun e => absurd e (by decide)⟩
  | _ => exact ⟨_, _, rfl, by decide, by decide, by decide, by decide, fun e => absurd e (by decide)⟩

theorem tok_start {t : Tok} (h : t.Starts) (inp : List Byte) :
    ∃ x r, t.text ++ inp = x :: r ∧ spaceB x = false ∧ x ≠ 59#8 ∧ isClose x = false ∧ x ≠ 255#8 ∧ isDot (some x) r = false := by
  cases t with
  | atom s d f =>
    obtain ⟨x, r, rfl, h1, h2, h3, h4, h5⟩ := atom_start h
    refine ⟨x, r ++ inp, rfl, h1, h2, h3, h4, ?_⟩
    by_cases hx : x = 46#8
    · obtain ⟨y, r', rfl, hy⟩ := h5 hx
      simp [isDot, peekIs, hy]
    · simp [isDot, hx]
  | opn o =>
    have := open_facts o h
    exact ⟨o, inp, rfl, this.1, this.2.1, this.2.2.2.1, this.2.2.2.2.2, by simp [isDot, this.2.2.2.2.1]⟩
  | cls c => exact h.elim
  | vcls => exact h.elim
  | dot => exact h.elim
  | quote => exact ⟨39#8, inp, rfl, by decide, by decide, by decide, by decide, by simp [isDot]⟩
  | vopn => exact ⟨35#8, 40#8 :: inp, rfl, by decide, by decide, by decide, by decide, by simp [isDot]⟩
  | squote => exact ⟨35#8, 39#8 :: inp, rfl, by decide, by decide, by decide, by decide, by simp [isDot]⟩
  | box => exact ⟨35#8, 38#8 :: inp, rfl, by decide, by decide, by decide, by decide, by simp [isDot]⟩

/-- in front of a datum: neither the end of input nor a closing parenthesis nor a dot -/
theorem lay_start {t : Tok} {ts : List Tok} {inp rest : List Byte} (h : Lay (t :: ts) inp rest) (ht : t.Starts) :
    ∃ x r, skip false inp = x :: r ∧ isClose x = false ∧ x ≠ 255#8 ∧ isDot (some x) r = false := by
  generalize hts : t :: ts = us at h
  induction h with
  | nil => cases hts
  | tok _ _ _ =>
    rename_i t' _ inp _ _ _ _
    cases hts
    obtain ⟨x, r, e, h1, h2, h3, h4, h5⟩ := tok_start ht inp
    exact ⟨x, r, by rw [e, skip_stop h1 h2], h3, h4, h5⟩
  | ws hw _ ih => rw [skip_ws hw]; exact ih hts
  | block => exact ⟨35#8, _, skip_stop (by decide) (by decide) _, by decide, by decide, by simp [isDot]⟩
  | datum => exact ⟨35#8, _, skip_stop (by decide) (by decide) _, by decide, by decide, by simp [isDot]⟩

/-- in front of a token that starts no datum there is only white space -/
theorem lay_nonstart {t : Tok} {ts : List Tok} {inp rest : List Byte} (h : Lay (t :: ts) inp rest) (hn : ¬ t.Starts) {b : Byte} (hb : t.text = [b])
    (h1 : spaceB b = false) (h2 : b ≠ 59#8) : ∃ inp', skip false inp = b :: inp' ∧ Lay ts inp' rest ∧ t.follow inp' ∧ inp'.length < inp.length := by
  generalize hts : t :: ts = us at h
  induction h with
  | nil => cases hts
  | tok hf hl _ =>
    cases hts
    rw [hb]
    exact ⟨_, skip_stop h1 h2 _, hl, hf, by simp⟩
  | ws hw _ ih =>
    obtain ⟨inp', e, hl, hf, hlen⟩ := ih hts
    exact ⟨inp', by rw [skip_ws hw]; exact e, hl, hf, by simp; omega⟩
  | block hs => cases hts; exact absurd hs hn
  | datum hs => cases hts; exact absurd hs hn

theorem den_obj_head {m : Mode} {ts : List Tok} {d : Dat} (h : Den m ts d) :
    ∃ t us, ts = t :: us ∧ (m = .obj → t.Starts) ∧ (∀ o, m = .tail o → t.Starts ∨ ∃ c, t = .cls c ∧ isClose c = true) ∧
      (m = .vec → t.Starts ∨ t = .vcls) := by
  induction h with
  | atom ha => exact ⟨_, _, rfl, fun _ => ha, nofun, nofun⟩
  | quote _ _ => exact ⟨_, _, rfl, fun _ => trivial, nofun, nofun⟩
  | squote _ _ => exact ⟨_, _, rfl, fun _ => trivial, nofun, nofun⟩
  | box _ _ => exact ⟨_, _, rfl, fun _ => trivial, nofun, nofun⟩
  | list ho _ _ => exact ⟨_, _, rfl, fun _ => ho, nofun, nofun⟩
  | vec _ _ => exact ⟨_, _, rfl, fun _ => trivial, nofun, nofun⟩
  | nil hm => exact ⟨_, _, rfl, nofun, fun _ _ => Or.inr ⟨_, rfl, (matching_facts _ _ hm).1⟩, nofun⟩
  | cons _ _ ih _ =>
    obtain ⟨t, us, rfl, h1, _⟩ := ih
    exact ⟨t, _, rfl, nofun, fun _ _ => Or.inl (h1 rfl), nofun⟩
  | dot _ _ _ ih _ =>
    obtain ⟨t, us, rfl, h1, _⟩ := ih
    exact ⟨t, _, rfl, nofun, fun _ _ => Or.inl (h1 rfl), nofun⟩
  | vnil => exact ⟨_, _, rfl, nofun, nofun, fun _ => Or.inr rfl⟩
  | vcons _ _ ih _ =>
    obtain ⟨t, us, rfl, h1, _⟩ := ih
    exact ⟨t, _, rfl, nofun, nofun, fun _ => Or.inl (h1 rfl)⟩

/-! ### the reader reads what the grammar denotes -/

/-- with enough fuel the outcome is `q` (specification device) -/
def Ev (f : Nat → Res (Dat × List Byte)) (q : Dat × List Byte) : Prop := ∃ N, ∀ n, N ≤ n → f n = .ok q

theorem Ev.succ {f g : Nat → Res (Dat × List Byte)} {q q' : Dat × List Byte} (h : Ev f q) (hg : ∀ n, f n = .ok q → g (n + 1) = .ok q') : Ev g q' := by
  obtain ⟨N, hN⟩ := h
  refine ⟨N + 1, fun n hn => ?_⟩
  obtain ⟨m, rfl⟩ : ∃ m, n = m + 1 := ⟨n - 1, by omega⟩
  exact hg m (hN m (by omega))

theorem Ev.succ2 {f f' g : Nat → Res (Dat × List Byte)} {p q q' : Dat × List Byte} (h : Ev f p) (h' : Ev f' q)
    (hg : ∀ n, f n = .ok p → f' n = .ok q → g (n + 1) = .ok q') : Ev g q' := by
  obtain ⟨N, hN⟩ := h
  obtain ⟨N', hN'⟩ := h'
  refine ⟨N + N' + 1, fun n hn => ?_⟩
  obtain ⟨m, rfl⟩ : ∃ m, n = m + 1 := ⟨n - 1, by omega⟩
  exact hg m (hN m (by omega)) (hN' m (by omega))

/-- reading a datum from inputs shorter than `K` -/
def Below (K : Nat) : Prop := ∀ (ts us : List Tok) (d : Dat) (inp rest : List Byte), inp.length < K → Den .obj ts d → Lay (ts ++ us) inp rest →
  ∃ inp', Lay us inp' rest ∧ inp'.length ≤ inp.length ∧ Ev (fun n => readObj n inp) (d, inp')

theorem lay_obj {K : Nat} (H : Below K) {t : Tok} (ht : t.Starts) {ts : List Tok} {rest : List Byte} : ∀ (m : Nat) (inp : List Byte), inp.length ≤ m →
    inp.length ≤ K → Lay (t :: ts) inp rest → ∃ inp', Lay ts inp' rest ∧ t.follow inp' ∧ (t.text ++ inp').length ≤ inp.length ∧
      ∀ q, Ev (fun n => readObj n (t.text ++ inp')) q → Ev (fun n => readObj n inp) q := by
  intro m
  induction m with
  | zero =>
    intro inp hm _ h
    obtain ⟨x, r, e, _⟩ := lay_start h ht
    have : inp = [] := List.length_eq_zero_iff.1 (by omega)
    subst this
    simp [skip] at e
  | succ m ih =>
    intro inp hm hK h
    cases h with
    | tok hf hl => exact ⟨_, hl, hf, Nat.le_refl _, fun q hq => hq⟩
    | @ws _ _ w inp _ hw hl =>
      have hpos : 1 ≤ w.length := by cases hw <;> simp
      simp only [List.length_append] at hm hK
      obtain ⟨inp', h1, h2, h3, h4⟩ := ih inp (by omega) (by omega) hl
      refine ⟨inp', h1, h2, by simp only [List.length_append] at h3 ⊢; omega, fun q hq => ?_⟩
      obtain ⟨N, hN⟩ := h4 q hq
      refine ⟨N, fun n hn => ?_⟩
      have := hN n hn
      try simp only at this ⊢
      rw [← readObj_skip, skip_ws hw, readObj_skip, this]
    | @block _ _ body inp _ hs hb hl =>
      simp only [List.length_cons, List.length_append] at hm hK
      obtain ⟨inp', h1, h2, h3, h4⟩ := ih inp (by omega) (by omega) hl
      refine ⟨inp', h1, h2, by simp only [List.length_cons, List.length_append] at h3 ⊢; omega, fun q hq => ?_⟩
      have hev := h4 q hq
      have h5 : Ev (fun n => readHash n (124#8 :: (body ++ (124#8 :: 35#8 :: inp)))) q := hev.succ (fun n hn => by
        try simp only at hn ⊢
        rw [readHash, if_neg (by decide), if_neg (by decide), if_neg (by decide), if_neg (by decide), if_neg (by decide), if_neg (by decide),
          if_neg (by decide), if_neg (by decide), if_neg (by decide), if_pos rfl, blockLoop_end hb, Res.ok_bind, hn])
      exact h5.succ (fun n hn => by rw [readObj_hash, hn])
    | @datum _ _ us d inp _ hs hd hl =>
      simp only [List.length_cons] at hm hK
      obtain ⟨inp1, h1, h2, h3⟩ := H us (t :: ts) d inp rest (by omega) hd hl
      obtain ⟨inp', h4, h5, h6, h7⟩ := ih inp1 (by omega) (by omega) h1
      refine ⟨inp', h4, h5, by simp only [List.length_cons, List.length_append] at h6 ⊢; omega, fun q hq => ?_⟩
      obtain ⟨t', us', rfl, hst, _⟩ := den_obj_head hd
      obtain ⟨x, r, ex, _, hx, _⟩ := lay_start hl (hst rfl)
      have h8 : Ev (fun n => readHash n (59#8 :: inp)) q := h3.succ2 (h7 q hq) (fun n hn hn' => by
        try simp only at hn hn' ⊢
        rw [readHash, if_neg (by decide), if_neg (by decide), if_neg (by decide), if_neg (by decide), if_neg (by decide), if_neg (by decide),
          if_neg (by decide), if_neg (by decide), if_pos rfl, readObj_skip, hn, ex]
        simp only [peek, getc]
        rw [notEof_ok hx]
        simp only [Res.ok_bind]
        exact hn')
      exact h8.succ (fun n hn => by rw [readObj_hash, hn])

theorem readPair_skip (n : Nat) (o : Byte) (inp : List Byte) : readPair n o (skip false inp) = readPair n o inp := by
  cases n with
  | zero => rfl
  | succ n => rw [readPair, readPair, skip_idem]

/-- the claim for each mode -/
def Claim (K : Nat) : Mode → List Tok → Dat → Prop
  | .obj, ts, d => ∀ (us : List Tok) (inp rest : List Byte), inp.length ≤ K → Lay (ts ++ us) inp rest →
      ∃ inp', Lay us inp' rest ∧ inp'.length ≤ inp.length ∧ Ev (fun n => readObj n inp) (d, inp')
  | .tail o, ts, d => ∀ (us : List Tok) (inp rest : List Byte), inp.length ≤ K → Lay (ts ++ us) inp rest →
      ∃ inp', Lay us inp' rest ∧ inp'.length ≤ inp.length ∧ Ev (fun n => readPair n o inp) (d, inp')
  | .vec, ts, d => ∀ (us : List Tok) (inp rest : List Byte), inp.length ≤ K → Lay (ts ++ us) inp rest →
      ∃ inp', Lay us inp' rest ∧ inp'.length ≤ inp.length ∧
        ∀ acc : List Dat, Ev (fun n => readVec n inp acc) (.vec (acc.reverse.foldr .cons d), inp')

theorem ofList_foldr (l : List Dat) : ofList l = l.foldr .cons .null := by
  induction l with
  | nil => rfl
  | cons d l ih => rw [ofList, ih]; rfl

theorem readPair_start {inp : List Byte} {x : Byte} {r : List Byte} (hx : skip false inp = x :: r) (h1 : isClose x = false) (h2 : x ≠ 255#8)
    (n : Nat) (o : Byte) : readPair (n + 1) o inp = (readObj n inp >>= fun q => readRest n o q.1 (skip false q.2)) := by
  rw [readPair, hx]
  simp only
  rw [notEof_ok h2, Res.ok_bind, h1]
  simp only [Bool.false_eq_true, if_false]
  rw [← hx, readObj_skip]

theorem claim_all {K : Nat} (H : Below K) {m : Mode} {ts : List Tok} {d : Dat} (h : Den m ts d) : Claim K m ts d := by
  induction h with
  | @atom s d f ha =>
    intro us inp rest hK hl
    obtain ⟨inp', h1, h2, h3, h4⟩ := lay_obj H (t := .atom s d f) ha _ inp (Nat.le_refl _) hK hl
    refine ⟨inp', h1, by simp at h3; omega, h4 _ ⟨2, fun n hn => ?_⟩⟩
    obtain ⟨k, rfl⟩ : ∃ k, n = k + 2 := ⟨n - 2, by omega⟩
    exact read_atom ha h2 k
  | @quote ts d _ ih =>
    intro us inp rest hK hl
    obtain ⟨inp1, h1, h2, h3, h4⟩ := lay_obj H (t := .quote) trivial _ inp (Nat.le_refl _) hK hl
    simp only [Tok.text, List.length_append, List.length_cons, List.length_nil] at h3
    obtain ⟨inp', h5, h6, h7⟩ := ih us inp1 rest (by omega) h1
    refine ⟨inp', h5, by omega, h4 _ (h7.succ (fun n hn => ?_))⟩
    simp only [Tok.text, List.singleton_append] at hn ⊢
    rw [readObj, skip_stop (by decide) (by decide)]
    simp only
    rw [if_neg (by decide), if_neg (by decide)]
    simp only [if_true]
    rw [hn]; rfl
  | @squote ts d _ ih =>
    intro us inp rest hK hl
    obtain ⟨inp1, h1, h2, h3, h4⟩ := lay_obj H (t := .squote) trivial _ inp (Nat.le_refl _) hK hl
    simp only [Tok.text, List.length_append, List.length_cons, List.length_nil] at h3
    obtain ⟨inp', h5, h6, h7⟩ := ih us inp1 rest (by omega) h1
    have h8 : Ev (fun n => readHash n (39#8 :: inp1)) (ofList [.sym quoteSyntaxSym, d], inp') := h7.succ (fun n hn => by
      try simp only at hn ⊢
      rw [readHash, if_neg (by decide), if_neg (by decide), if_neg (by decide), if_neg (by decide), if_pos rfl, hn]; rfl)
    exact ⟨inp', h5, by omega, h4 _ (h8.succ (fun n hn => by
      simp only [Tok.text, List.cons_append, List.nil_append] at hn ⊢; rw [readObj_hash, hn]))⟩
  | @box ts d _ ih =>
    intro us inp rest hK hl
    obtain ⟨inp1, h1, h2, h3, h4⟩ := lay_obj H (t := .box) trivial _ inp (Nat.le_refl _) hK hl
    simp only [Tok.text, List.length_append, List.length_cons, List.length_nil] at h3
    obtain ⟨inp', h5, h6, h7⟩ := ih us inp1 rest (by omega) h1
    have h8 : Ev (fun n => readHash n (38#8 :: inp1)) (.box d, inp') := h7.succ (fun n hn => by
      try simp only at hn ⊢
      rw [readHash, if_neg (by decide), if_neg (by decide), if_neg (by decide), if_neg (by decide), if_neg (by decide), if_neg (by decide),
        if_pos rfl, hn]; rfl)
    exact ⟨inp', h5, by omega, h4 _ (h8.succ (fun n hn => by
      simp only [Tok.text, List.cons_append, List.nil_append] at hn ⊢; rw [readObj_hash, hn]))⟩
  | @list o ts d ho _ ih =>
    intro us inp rest hK hl
    obtain ⟨inp1, h1, h2, h3, h4⟩ := lay_obj H (t := .opn o) ho _ inp (Nat.le_refl _) hK hl
    simp only [Tok.text, List.length_append, List.length_cons, List.length_nil] at h3
    obtain ⟨inp', h5, h6, h7⟩ := ih us inp1 rest (by omega) h1
    refine ⟨inp', h5, by omega, h4 _ (h7.succ (fun n hn => ?_))⟩
    have hof := open_facts o ho
    simp only [Tok.text, List.singleton_append] at hn ⊢
    rw [readObj, skip_stop hof.1 hof.2.1]
    simp only
    rw [if_neg hof.2.2.1, ho]
    simp only [if_true]
    exact hn
  | @vec ts d _ ih =>
    intro us inp rest hK hl
    obtain ⟨inp1, h1, h2, h3, h4⟩ := lay_obj H (t := .vopn) trivial _ inp (Nat.le_refl _) hK hl
    simp only [Tok.text, List.length_append, List.length_cons, List.length_nil] at h3
    obtain ⟨inp', h5, h6, h7⟩ := ih us inp1 rest (by omega) h1
    have h8 : Ev (fun n => readHash n (40#8 :: inp1)) (.vec d, inp') := (h7 []).succ (fun n hn => by
      try simp only at hn ⊢
      rw [readHash, if_neg (by decide), if_neg (by decide), if_neg (by decide), if_neg (by decide), if_neg (by decide), if_pos rfl, hn]; rfl)
    exact ⟨inp', h5, by omega, h4 _ (h8.succ (fun n hn => by
      simp only [Tok.text, List.cons_append, List.nil_append] at hn ⊢; rw [readObj_hash, hn]))⟩
  | @nil o c hm =>
    intro us inp rest hK hl
    have hc := (matching_facts _ _ hm).1
    have hcf := close_facts c hc
    obtain ⟨inp', h1, h2, _, h4⟩ := lay_nonstart (t := .cls c) hl (fun h => h) rfl hcf.1 hcf.2.1
    refine ⟨inp', h2, by omega, 1, fun n hn => ?_⟩
    obtain ⟨k, rfl⟩ : ∃ k, n = k + 1 := ⟨n - 1, by omega⟩
    simp only
    rw [readPair, h1]
    simp only
    rw [notEof_ok hcf.2.2.2, Res.ok_bind, hc, hm]
    rfl
  | @cons o ts us d e hd he ih1 ih2 =>
    intro vs inp rest hK hl
    rw [List.append_assoc] at hl
    obtain ⟨inp1, h1, h2, h3⟩ := ih1 (us ++ vs) inp rest hK hl
    obtain ⟨inp', h4, h5, h6⟩ := ih2 vs inp1 rest (by omega) h1
    obtain ⟨t, ts', rfl, hst, _⟩ := den_obj_head hd
    obtain ⟨x, r, ex, hx1, hx2, _⟩ := lay_start hl (hst rfl)
    obtain ⟨t', us', rfl, _, htl, _⟩ := den_obj_head he
    have hy : ∃ y r', skip false inp1 = y :: r' ∧ y ≠ 255#8 ∧ isDot (some y) r' = false := by
      rcases htl o rfl with hs | ⟨c, rfl, hc⟩
      · obtain ⟨y, r', e1, _, e3, e4⟩ := lay_start h1 hs
        exact ⟨y, r', e1, e3, e4⟩
      · have hcf := close_facts c hc
        obtain ⟨inp2, e1, _⟩ := lay_nonstart (t := .cls c) h1 (fun h => h) rfl hcf.1 hcf.2.1
        exact ⟨c, inp2, e1, hcf.2.2.2, by simp [isDot, hcf.2.2.1]⟩
    obtain ⟨y, r', ey, hy1, hy2⟩ := hy
    have h7 : Ev (fun n => readRest n o d (skip false inp1)) (.cons d e, inp') := h6.succ (fun n hn => by
      try simp only at hn ⊢
      rw [ey, readRest, notEof_ok hy1, Res.ok_bind, hy2]
      simp only [Bool.false_eq_true, if_false]
      rw [← ey, readPair_skip, hn]; rfl)
    refine ⟨inp', h4, by omega, h3.succ2 h7 (fun n hn hn' => ?_)⟩
    try simp only at hn hn' ⊢
    rw [readPair_start ex hx1 hx2, hn, Res.ok_bind]
    exact hn'
  | @dot o c ts us d e hm hd he ih1 ih2 =>
    intro vs inp rest hK hl
    have hc := (matching_facts _ _ hm).1
    have hcf := close_facts c hc
    rw [List.append_assoc] at hl
    obtain ⟨inp1, h1, h2, h3⟩ := ih1 _ inp rest hK hl
    rw [List.cons_append] at h1
    obtain ⟨inp2, e2, hl2, ⟨b, r2, hb, hsp⟩, hlen2⟩ := lay_nonstart (t := .dot) h1 (fun h => h) rfl (by decide) (by decide)
    rw [List.append_assoc] at hl2
    obtain ⟨inp3, h4, h5, h6⟩ := ih2 _ inp2 rest (by omega) hl2
    obtain ⟨inp', e3, hl3, _, hlen3⟩ := lay_nonstart (t := .cls c) h4 (fun h => h) rfl hcf.1 hcf.2.1
    obtain ⟨t, ts', rfl, hst, _⟩ := den_obj_head hd
    obtain ⟨x, r, ex, hx1, hx2, _⟩ := lay_start hl (hst rfl)
    have h7 : Ev (fun n => readRest n o d (skip false inp1)) (.cons d e, inp') := h6.succ (fun n hn => by
      try simp only at hn ⊢
      have hdot : isDot (some 46#8) inp2 = true := by rw [hb]; simp [isDot, peekIs, hsp]
      have hds : DelimStart inp2 := by rw [hb]; exact space_delim b hsp
      rw [e2, readRest, notEof_ok (by decide), Res.ok_bind, hdot]
      simp only [if_true]
      rw [expectDelim_ok hds, Res.ok_bind, hn, Res.ok_bind]
      simp only
      rw [e3, readEnd, notEof_ok hcf.2.2.2, Res.ok_bind, hc, hm]
      rfl)
    refine ⟨inp', hl3, by omega, h3.succ2 h7 (fun n hn hn' => ?_)⟩
    try simp only at hn hn' ⊢
    rw [readPair_start ex hx1 hx2, hn, Res.ok_bind]
    exact hn'
  | vnil =>
    intro us inp rest hK hl
    obtain ⟨inp', h1, h2, h3, h4⟩ := lay_nonstart (t := .vcls) hl (fun h => h) rfl (by decide) (by decide)
    refine ⟨inp', h2, by omega, fun acc => ⟨1, fun n hn => ?_⟩⟩
    obtain ⟨k, rfl⟩ : ∃ k, n = k + 1 := ⟨n - 1, by omega⟩
    simp only
    rw [readVec, h1, if_pos (show peek (41#8 :: inp') = some 41#8 from rfl), readChar_byte (by decide) h3, ofList_foldr]
    rfl
  | @vcons ts us d e hd he ih1 ih2 =>
    intro vs inp rest hK hl
    rw [List.append_assoc] at hl
    obtain ⟨inp1, h1, h2, h3⟩ := ih1 (us ++ vs) inp rest hK hl
    obtain ⟨inp', h4, h5, h6⟩ := ih2 vs inp1 rest (by omega) h1
    obtain ⟨t, ts', rfl, hst, _⟩ := den_obj_head hd
    obtain ⟨x, r, ex, hx1, hx2, _⟩ := lay_start hl (hst rfl)
    refine ⟨inp', h4, by omega, fun acc => ?_⟩
    refine h3.succ2 (h6 (d :: acc)) (fun n hn hn' => ?_)
    try simp only at hn hn' ⊢
    have hx : ¬ peek (skip false inp) = some 41#8 := by
      rw [ex]; simp only [peek, getc, Option.some.injEq]
      rintro rfl; exact absurd hx1 (by decide)
    rw [readVec, if_neg hx, readObj_skip, hn, Res.ok_bind]
    simp only
    rw [hn']
    simp [List.foldr_append]

theorem below_all (K : Nat) : Below K := by
  induction K with
  | zero => intro ts us d inp rest h; omega
  | succ K ih =>
    intro ts us d inp rest hlen hd hl
    exact claim_all ih hd us inp rest (by omega) hl

/-- reading a layout of a datum's tokens gives the datum and stops right behind it -/
theorem read_layout {ts us : List Tok} {d : Dat} {inp rest : List Byte} (hd : Den .obj ts d) (hl : Lay (ts ++ us) inp rest) :
    ∃ inp', Lay us inp' rest ∧ Ev (fun n => readObj n inp) (d, inp') := by
  obtain ⟨inp', h1, _, h3⟩ := below_all (inp.length + 1) ts us d inp rest (by omega) hd hl
  exact ⟨inp', h1, h3⟩

end Minim.Rd
