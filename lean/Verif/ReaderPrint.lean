import Verif.ReaderLemmas
import Verif.StrProps

set_option autoImplicit false

/-! # What the printers print is a layout of the printed datum -/

namespace Minim.Rd

/-! ### specification: which data can be read back -/

mutual
/-- data that a printer writing the characters of strings by `esc` and, if `bx` is set, boxes and empty vectors, prints readably
(specification): no smallest fixnum, no character 0xFF, only readable symbols, strings whose printed characters denote them -/
def Readable (esc : Byte → List Byte) (bx : Bool) : Dat → Prop
  | .null => True
  | .bool _ => True
  | .fix z => -2 ^ 63 < z ∧ z < 2 ^ 63
  | .char b => b ≠ 255#8
  | .sym s => SymOk s
  | .str s => (∀ b ∈ s, Piece (esc b) b) ∧ s.length < 4096
  | .cons a d => Readable esc bx a ∧ Readable esc bx d
  | .vec l => ReadableElems esc bx l ∧ (bx = true ∨ l ≠ .null)
  | .box d => bx = true ∧ Readable esc bx d
  | .nul => False

/-- a proper list of readable data (specification) -/
def ReadableElems (esc : Byte → List Byte) (bx : Bool) : Dat → Prop
  | .null => True
  | .cons a d => Readable esc bx a ∧ ReadableElems esc bx d
  | _ => False
end

/-! ### a common form of both printers (auxiliary) -/

mutual
/-- printed form with a parameter for string characters (auxiliary) -/
def canon (esc : Byte → List Byte) : Dat → List Byte
  | .null => [40#8, 41#8]
  | .bool b => if b then [35#8, 116#8] else [35#8, 102#8]
  | .fix z => Str.decimal z
  | .char b => [35#8, 92#8] ++ charName b
  | .sym s => s
  | .str s => [34#8] ++ (s.flatMap esc ++ [34#8])
  | .cons a e => [40#8] ++ (canon esc a ++ (canonTail esc e ++ [41#8]))
  | .vec l => [35#8, 40#8] ++ (canonElems esc true l ++ [41#8])
  | .box e => [35#8, 38#8] ++ canon esc e
  | .nul => []

/-- the rest of a list (auxiliary) -/
def canonTail (esc : Byte → List Byte) : Dat → List Byte
  | .null => []
  | .cons a e => [32#8] ++ (canon esc a ++ canonTail esc e)
  | .bool b => [32#8, 46#8, 32#8] ++ (if b then [35#8, 116#8] else [35#8, 102#8])
  | .fix z => [32#8, 46#8, 32#8] ++ Str.decimal z
  | .char b => [32#8, 46#8, 32#8] ++ ([35#8, 92#8] ++ charName b)
  | .sym s => [32#8, 46#8, 32#8] ++ s
  | .str s => [32#8, 46#8, 32#8] ++ ([34#8] ++ (s.flatMap esc ++ [34#8]))
  | .vec l => [32#8, 46#8, 32#8] ++ ([35#8, 40#8] ++ (canonElems esc true l ++ [41#8]))
  | .box e => [32#8, 46#8, 32#8] ++ ([35#8, 38#8] ++ canon esc e)
  | .nul => []

/-- the elements of a vector (auxiliary) -/
def canonElems (esc : Byte → List Byte) (first : Bool) : Dat → List Byte
  | .cons a e => (if first then [] else [32#8]) ++ (canon esc a ++ canonElems esc false e)
  | _ => []
end

mutual
theorem wr_canon : ∀ d : Dat, Readable wrStrChar false d → wr false d = canon wrStrChar d
  | .null, _ => by simp [wr, canon]
  | .bool b, _ => by simp [wr, canon]
  | .fix z, _ => by simp [wr, canon]
  | .char b, _ => by simp [wr, canon]
  | .sym s, _ => by simp [wr, canon]
  | .str s, _ => by simp [wr, canon]
  | .cons a d, h => by
    simp only [Readable] at h
    rw [wr, canon, wr_canon a h.1, wrTail_canon d h.2]
  | .vec l, h => by
    simp only [Readable] at h
    cases l with
    | null => simp at h
    | cons a e =>
      simp only [ReadableElems] at h
      rw [wr, canon, wrElems, canonElems, wr_canon a h.1.1, wrElems_canon e h.1.2]
      simp
    | _ => exact absurd h.1 (by simp [ReadableElems])
  | .box d, h => by simp [Readable] at h
  | .nul, h => by simp [Readable] at h
theorem wrTail_canon : ∀ d : Dat, Readable wrStrChar false d → wrTail false d = canonTail wrStrChar d
  | .null, _ => by simp [wrTail, canonTail]
  | .bool b, _ => by simp [wrTail, canonTail, wr]
  | .fix z, _ => by simp [wrTail, canonTail, wr]
  | .char b, _ => by simp [wrTail, canonTail, wr]
  | .sym s, _ => by simp [wrTail, canonTail, wr]
  | .str s, _ => by simp [wrTail, canonTail, wr]
  | .cons a d, h => by
    simp only [Readable] at h
    rw [wrTail, canonTail, wr_canon a h.1, wrTail_canon d h.2]
  | .vec l, h => by
    simp only [Readable] at h
    cases l with
    | null => simp at h
    | cons a e =>
      simp only [ReadableElems] at h
      rw [wrTail, canonTail, wrElems, canonElems, wr_canon a h.1.1, wrElems_canon e h.1.2]
      simp
    | _ => exact absurd h.1 (by simp [ReadableElems])
  | .box d, h => by simp [Readable] at h
  | .nul, h => by simp [Readable] at h
theorem wrElems_canon : ∀ d : Dat, ReadableElems wrStrChar false d → wrElems false false d = canonElems wrStrChar false d
  | .null, _ => by simp [wrElems, canonElems]
  | .cons a d, h => by
    simp only [ReadableElems] at h
    rw [wrElems, canonElems, wr_canon a h.1, wrElems_canon d h.2]; rfl
  | .bool b, h => by simp [ReadableElems] at h
  | .fix z, h => by simp [ReadableElems] at h
  | .char b, h => by simp [ReadableElems] at h
  | .sym s, h => by simp [ReadableElems] at h
  | .str s, h => by simp [ReadableElems] at h
  | .vec l, h => by simp [ReadableElems] at h
  | .box d, h => by simp [ReadableElems] at h
  | .nul, h => by simp [ReadableElems] at h
end

/-- a string is written as it is by the C printer (specification) -/
def asIs (b : Byte) : List Byte := [b]

theorem flatMap_asIs (s : List Byte) : s.flatMap asIs = s := by
  induction s with
  | nil => rfl
  | cons b s ih => simp [List.flatMap_cons, asIs, ih]

mutual
theorem cw_canon : ∀ d : Dat, Readable asIs true d → cw d = canon asIs d
  | .null, _ => by simp [cw, canon]
  | .bool b, _ => by simp [cw, canon]
  | .fix z, _ => by simp [cw, canon]
  | .char b, _ => by simp [cw, canon]
  | .sym s, _ => by simp [cw, canon]
  | .str s, _ => by simp [cw, canon, flatMap_asIs]
  | .cons a d, h => by
    simp only [Readable] at h
    rw [cw, canon, cw_canon a h.1, cwTail_canon d h.2]
  | .vec l, h => by
    simp only [Readable] at h
    rw [cw, canon, cwElems_canon l h.1]
  | .box d, h => by
    simp only [Readable] at h
    rw [cw, canon, cw_canon d h.2]
  | .nul, h => by simp [Readable] at h
theorem cwTail_canon : ∀ d : Dat, Readable asIs true d → cwTail d = canonTail asIs d
  | .null, _ => by simp [cwTail, canonTail]
  | .bool b, _ => by simp [cwTail, canonTail, cw]
  | .fix z, _ => by simp [cwTail, canonTail, cw]
  | .char b, _ => by simp [cwTail, canonTail, cw]
  | .sym s, _ => by simp [cwTail, canonTail, cw]
  | .str s, _ => by simp [cwTail, canonTail, cw, flatMap_asIs]
  | .cons a d, h => by
    simp only [Readable] at h
    rw [cwTail, canonTail, cw_canon a h.1, cwTail_canon d h.2]
  | .vec l, h => by
    simp only [Readable] at h
    rw [cwTail, canonTail, cwElems_canon l h.1]
  | .box d, h => by
    simp only [Readable] at h
    rw [cwTail, canonTail, cw_canon d h.2]
  | .nul, h => by simp [Readable] at h
theorem cwElems_canon : ∀ d : Dat, ReadableElems asIs true d → ∀ {f : Bool}, cwElems f d = canonElems asIs f d
  | .null, _, _ => by simp [cwElems, canonElems]
  | .cons a d, h, _ => by
    simp only [ReadableElems] at h
    rw [cwElems, canonElems, cw_canon a h.1, cwElems_canon d h.2]
  | .bool b, h, _ => by simp [ReadableElems] at h
  | .fix z, h, _ => by simp [ReadableElems] at h
  | .char b, h, _ => by simp [ReadableElems] at h
  | .sym s, h, _ => by simp [ReadableElems] at h
  | .str s, h, _ => by simp [ReadableElems] at h
  | .vec l, h, _ => by simp [ReadableElems] at h
  | .box d, h, _ => by simp [ReadableElems] at h
  | .nul, h, _ => by simp [ReadableElems] at h
end

/-! ### the printed form is a layout -/

/-- `text`, in front of a delimiter, is a layout of `ts` (auxiliary) -/
def Pr (text : List Byte) (ts : List Tok) : Prop :=
  ∀ (us : List Tok) (inp rest : List Byte), DelimStart inp → Lay us inp rest → Lay (ts ++ us) (text ++ inp) rest

theorem pr_atom {s : List Byte} {d : Dat} {f : Bool} : Pr s [.atom s d f] :=
  fun _ _ _ hd hl => Lay.tok (t := .atom s d f) (Or.inr hd) hl

theorem numeral_natDigits (n : Nat) : numeral 10 decVal (Str.natDigits n) = n := by
  induction n using Nat.strongRecOn with
  | _ n ih =>
    rw [Str.natDigits]
    split
    · rename_i h
      simp only [numeral, List.foldl_cons, List.foldl_nil, decVal, BitVec.toNat_ofNat]
      omega
    · rename_i h
      have := ih (n / 10) (by omega)
      unfold numeral at this ⊢
      rw [List.foldl_append, this]
      simp only [List.foldl_cons, List.foldl_nil, decVal, BitVec.toNat_ofNat]
      omega

theorem digits_natDigits {n : Nat} (h : n < 2 ^ 63) : Digits 10 digitB decVal (Str.natDigits n) := by
  refine ⟨Str.natDigits_ne_nil n, fun b hb => ?_, ?_, by rw [numeral_natDigits]; exact h⟩
  · obtain ⟨d, hd, rfl⟩ := Str.natDigits_range n b hb
    have : ∀ d : Fin 10, digitB (BitVec.ofNat 8 (48 + d)) = true := by decide
    exact this ⟨d, hd⟩
  · have := Str.natDigits_length 18 n (by omega)
    omega

theorem atom_fix {z : Int} (h : -2 ^ 63 < z ∧ z < 2 ^ 63) : Atom (Str.decimal z) (.fix z) false := by
  unfold Str.decimal
  have hd : Digits 10 digitB decVal (Str.natDigits z.natAbs) := digits_natDigits (by omega)
  split
  · have := Atom.neg _ hd
    rw [numeral_natDigits] at this
    have e : -(z.natAbs : Int) = z := by omega
    rwa [e] at this
  · have := Atom.dec _ hd
    rw [numeral_natDigits] at this
    have e : (z.natAbs : Int) = z := by omega
    rwa [e] at this

theorem charName_cases : ∀ b : Byte, charName b = [b] ∨ charNames.any (fun e => charName b == e.1 :: e.2.1 && e.2.2 == b) = true := by decide +kernel

theorem atom_char {b : Byte} (h : b ≠ 255#8) : Atom ([35#8, 92#8] ++ charName b) (.char b) false := by
  rcases charName_cases b with e | e
  · rw [e]; exact Atom.char b h
  · obtain ⟨y, he, h2⟩ := List.any_eq_true.1 e
    simp only [Bool.and_eq_true, beq_iff_eq] at h2
    obtain ⟨h2, rfl⟩ := h2
    rw [h2]; exact Atom.named y he

theorem pieces_flatMap {esc : Byte → List Byte} : ∀ {s : List Byte}, (∀ b ∈ s, Piece (esc b) b) → Pieces (s.flatMap esc) s
  | [], _ => Pieces.nil
  | b :: s, h => by
    rw [List.flatMap_cons]
    exact Pieces.cons (h b (by simp)) (pieces_flatMap fun c hc => h c (by simp [hc]))

theorem atom_str {esc : Byte → List Byte} {s : List Byte} (h : (∀ b ∈ s, Piece (esc b) b) ∧ s.length < 4096) :
    Atom ([34#8] ++ (s.flatMap esc ++ [34#8])) (.str s) true := Atom.str _ _ (pieces_flatMap h.1) h.2

theorem lay_space {ts : List Tok} {inp rest : List Byte} (h : ∃ t us, ts = t :: us) (hl : Lay ts inp rest) : Lay ts (32#8 :: inp) rest := by
  obtain ⟨t, us, rfl⟩ := h
  exact Lay.ws (w := [32#8]) (Ws.space _ (by decide)) hl

/-- the claim about the rest of a list (auxiliary) -/
def TailClaim (text : List Byte) (e : Dat) : Prop :=
  ∃ us, (∃ t us', us = t :: us') ∧ (∀ ts d, Den .obj ts d → Den (.tail 40#8) (ts ++ us) (.cons d e)) ∧ (∀ inp, DelimStart (text ++ (41#8 :: inp))) ∧
    Pr (text ++ [41#8]) us

theorem dot_tail {text : List Byte} {e : Dat} {us : List Tok} (hd : Den .obj us e) (hp : Pr text us) : TailClaim ([32#8, 46#8, 32#8] ++ text) e := by
  refine ⟨.dot :: (us ++ [.cls 41#8]), ⟨_, _, rfl⟩, fun ts d h => Den.dot (by decide) h hd, fun inp => (by decide : delimB 32#8 = true), fun vs inp rest hi hl => ?_⟩
  have h1 : Lay (.cls 41#8 :: vs) (41#8 :: inp) rest := Lay.tok (t := .cls 41#8) trivial hl
  have h2 := hp _ (41#8 :: inp) rest (by decide : delimB 41#8 = true) h1
  obtain ⟨t, us', rfl, _⟩ := den_obj_head hd
  have h3 := lay_space ⟨_, _, rfl⟩ h2
  have h4 := Lay.tok (t := .dot) ⟨_, _, rfl, by decide⟩ h3
  have h5 := lay_space ⟨_, _, rfl⟩ h4
  simpa [Tok.text, List.append_assoc] using h5

theorem vec_pr {esc : Byte → List Byte} {l : Dat} (h : ∃ ts, Den .vec ts l ∧ Pr (canonElems esc true l ++ [41#8]) ts) :
    ∃ ts, Den .obj ts (.vec l) ∧ Pr ([35#8, 40#8] ++ (canonElems esc true l ++ [41#8])) ts := by
  obtain ⟨ts, h1, h2⟩ := h
  refine ⟨.vopn :: ts, Den.vec h1, fun us inp rest hi hl => ?_⟩
  rw [List.append_assoc]
  exact Lay.tok (t := .vopn) trivial (h2 us inp rest hi hl)

theorem box_pr {text : List Byte} {d : Dat} (h : ∃ ts, Den .obj ts d ∧ Pr text ts) : ∃ ts, Den .obj ts (.box d) ∧ Pr ([35#8, 38#8] ++ text) ts := by
  obtain ⟨ts, h1, h2⟩ := h
  refine ⟨.box :: ts, Den.box h1, fun us inp rest hi hl => ?_⟩
  rw [List.append_assoc]
  exact Lay.tok (t := .box) trivial (h2 us inp rest hi hl)

theorem atom_bool (b : Bool) : Atom (if b then [35#8, 116#8] else [35#8, 102#8]) (.bool b) true := by
  cases b
  · exact Atom.fls
  · exact Atom.tru

mutual
theorem canon_pr (esc : Byte → List Byte) (bx : Bool) : ∀ d : Dat, Readable esc bx d → ∃ ts, Den .obj ts d ∧ Pr (canon esc d) ts
  | .null, _ => ⟨[.opn 40#8, .cls 41#8], Den.list (by decide) (Den.nil (by decide)), fun us inp rest _ hl => by
      rw [canon]
      exact Lay.tok (t := .opn 40#8) trivial (Lay.tok (t := .cls 41#8) trivial hl)⟩
  | .bool b, _ => ⟨_, Den.atom (atom_bool b), by rw [canon]; exact pr_atom⟩
  | .fix z, h => ⟨_, Den.atom (atom_fix (by simpa only [Readable] using h)), by rw [canon]; exact pr_atom⟩
  | .char b, h => ⟨_, Den.atom (atom_char (by simpa only [Readable] using h)), by rw [canon]; exact pr_atom⟩
  | .sym s, h => ⟨_, Den.atom (Atom.sym s (by simpa only [Readable] using h)), by rw [canon]; exact pr_atom⟩
  | .str s, h => ⟨_, Den.atom (atom_str (by simpa only [Readable] using h)), by rw [canon]; exact pr_atom⟩
  | .cons a e, h => by
    simp only [Readable] at h
    obtain ⟨ts, h1, h2⟩ := canon_pr esc bx a h.1
    obtain ⟨us, _, h3, h4, h5⟩ := canonTail_pr esc bx e h.2
    refine ⟨.opn 40#8 :: (ts ++ us), Den.list (by decide) (h3 ts a h1), fun vs inp rest hi hl => ?_⟩
    have := h2 _ _ rest (by simpa using h4 inp) (h5 vs inp rest hi hl)
    have := Lay.tok (t := .opn 40#8) trivial this
    rw [canon]
    simpa [Tok.text] using this
  | .vec l, h => by
    simp only [Readable] at h
    rw [canon]
    exact vec_pr (canonElems_pr esc bx l h.1 true)
  | .box d, h => by
    simp only [Readable] at h
    rw [canon]
    exact box_pr (canon_pr esc bx d h.2)
  | .nul, h => by simp [Readable] at h
theorem canonTail_pr (esc : Byte → List Byte) (bx : Bool) : ∀ d : Dat, Readable esc bx d → TailClaim (canonTail esc d) d
  | .null, _ => by
    rw [canonTail]
    refine ⟨[.cls 41#8], ⟨_, _, rfl⟩, fun ts d h => Den.cons h (Den.nil (by decide)), fun inp => (by decide : delimB 41#8 = true), fun us inp rest hi hl => ?_⟩
    exact Lay.tok (t := .cls 41#8) trivial hl
  | .cons a e, h => by
    simp only [Readable] at h
    obtain ⟨ts, h1, h2⟩ := canon_pr esc bx a h.1
    obtain ⟨us, _, h3, h4, h5⟩ := canonTail_pr esc bx e h.2
    rw [canonTail]
    obtain ⟨t, ts', rfl, _⟩ := den_obj_head h1
    refine ⟨t :: ts' ++ us, ⟨_, _, rfl⟩, fun ts d h => Den.cons h (h3 _ a h1), fun inp => (by decide : delimB 32#8 = true), fun vs inp rest hi hl => ?_⟩
    have := h2 _ _ rest (by simpa using h4 inp) (h5 vs inp rest hi hl)
    have := lay_space ⟨_, _, rfl⟩ this
    simpa using this
  | .bool b, _ => by rw [canonTail]; exact dot_tail (Den.atom (atom_bool b)) pr_atom
  | .fix z, h => by rw [canonTail]; exact dot_tail (Den.atom (atom_fix (by simpa only [Readable] using h))) pr_atom
  | .char b, h => by rw [canonTail]; exact dot_tail (Den.atom (atom_char (by simpa only [Readable] using h))) pr_atom
  | .sym s, h => by rw [canonTail]; exact dot_tail (Den.atom (Atom.sym s (by simpa only [Readable] using h))) pr_atom
  | .str s, h => by rw [canonTail]; exact dot_tail (Den.atom (atom_str (by simpa only [Readable] using h))) pr_atom
  | .vec l, h => by
    simp only [Readable] at h
    rw [canonTail]
    obtain ⟨ts, h1, h2⟩ := vec_pr (canonElems_pr esc bx l h.1 true)
    exact dot_tail h1 h2
  | .box d, h => by
    simp only [Readable] at h
    rw [canonTail]
    obtain ⟨ts, h1, h2⟩ := box_pr (canon_pr esc bx d h.2)
    exact dot_tail h1 h2
  | .nul, h => by simp [Readable] at h
theorem canonElems_pr (esc : Byte → List Byte) (bx : Bool) : ∀ d : Dat, ReadableElems esc bx d → ∀ f : Bool,
    ∃ ts, Den .vec ts d ∧ Pr (canonElems esc f d ++ [41#8]) ts
  | .null, _, f => by
    refine ⟨[.vcls], Den.vnil, fun us inp rest hi hl => ?_⟩
    rw [canonElems]
    · exact Lay.tok (t := .vcls) hi hl
    · simp
  | .cons a e, h, f => by
    simp only [ReadableElems] at h
    obtain ⟨ts, h1, h2⟩ := canon_pr esc bx a h.1
    obtain ⟨us, h3, h4⟩ := canonElems_pr esc bx e h.2 false
    obtain ⟨t, ts', rfl, _⟩ := den_obj_head h1
    refine ⟨t :: ts' ++ us, Den.vcons h1 h3, fun vs inp rest hi hl => ?_⟩
    have hds : DelimStart (canonElems esc false e ++ [41#8] ++ inp) := by
      cases e with
      | cons b e' => rw [canonElems]; exact (by decide : delimB 32#8 = true)
      | null => simp only [canonElems]; exact (by decide : delimB 41#8 = true)
      | _ => exact absurd h.2 (by simp [ReadableElems])
    have := h2 _ _ rest hds (h4 vs inp rest hi hl)
    rw [canonElems]
    cases f with
    | true => simpa using this
    | false =>
      have := lay_space ⟨_, _, rfl⟩ this
      simpa using this
  | .bool b, h, _ => by simp [ReadableElems] at h
  | .fix z, h, _ => by simp [ReadableElems] at h
  | .char b, h, _ => by simp [ReadableElems] at h
  | .sym s, h, _ => by simp [ReadableElems] at h
  | .str s, h, _ => by simp [ReadableElems] at h
  | .vec l, h, _ => by simp [ReadableElems] at h
  | .box d, h, _ => by simp [ReadableElems] at h
  | .nul, h, _ => by simp [ReadableElems] at h
end

/-- printed data are read back, whatever delimiter follows -/
theorem canon_read {esc : Byte → List Byte} {bx : Bool} {d : Dat} (h : Readable esc bx d) {rest : List Byte} (hr : DelimStart rest) :
    Ev (fun n => readObj n (canon esc d ++ rest)) (d, rest) := by
  obtain ⟨ts, h1, h2⟩ := canon_pr esc bx d h
  have hl := h2 [] rest rest hr (Lay.nil rest)
  obtain ⟨inp', h3, h4⟩ := read_layout h1 hl
  cases h3
  exact h4

end Minim.Rd
