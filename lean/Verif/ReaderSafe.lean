import Verif.ReaderLemmas
import Mathlib.Data.List.Infix

set_option autoImplicit false

/-! # Progress, termination and memory safety of the reader -/

namespace Minim.Rd

/-! ### what has been read is a prefix of the input -/

/-- every successful outcome satisfies `P` (auxiliary) -/
def Holds {α : Type} (P : α → Prop) (r : Res α) : Prop := ∀ a, r = .ok a → P a

theorem Holds.bind {α β : Type} {P : α → Prop} {Q : β → Prop} {x : Res α} {f : α → Res β} (h : Holds P x) (hf : ∀ a, P a → Holds Q (f a)) :
    Holds Q (x >>= f) := by
  intro b hb
  obtain ⟨a, ha, hb'⟩ := Res.bind_eq_ok.1 hb
  exact hf a (h a ha) b hb'

theorem Holds.ok {α : Type} {P : α → Prop} {a : α} (h : P a) : Holds P (.ok a) := by
  rintro b ⟨⟩; exact h

theorem Holds.err {α : Type} {P : α → Prop} : Holds P (.err : Res α) := nofun
theorem Holds.ub {α : Type} {P : α → Prop} : Holds P (.ub : Res α) := nofun
theorem Holds.oof {α : Type} {P : α → Prop} : Holds P (.oof : Res α) := nofun

theorem Holds.ite {α : Type} {P : α → Prop} {c : Prop} [Decidable c] {a b : Res α} (h1 : c → Holds P a) (h2 : ¬ c → Holds P b) :
    Holds P (if c then a else b) := by
  split
  · exact h1 ‹_›
  · exact h2 ‹_›

theorem Holds.mono {α : Type} {P Q : α → Prop} {r : Res α} (h : Holds P r) (hf : ∀ a, P a → Q a) : Holds Q r := fun a ha => hf a (h a ha)

theorem Holds.any {α : Type} (r : Res α) : Holds (fun _ => True) r := fun _ _ => trivial

theorem skip_suffix : ∀ (f : Bool) (inp : List Byte), skip f inp <:+ inp
  | f, [] => by cases f <;> simp [skip]
  | false, b :: r => by
    rw [skip]; split
    · exact (skip_suffix false r).trans (List.suffix_cons _ _)
    · split
      · exact (skip_suffix true r).trans (List.suffix_cons _ _)
      · exact List.suffix_rfl
  | true, b :: r => by
    rw [skip]; split
    · exact (skip_suffix false r).trans (List.suffix_cons _ _)
    · exact (skip_suffix true r).trans (List.suffix_cons _ _)

theorem ungetc_chr (x : Byte) (r : List Byte) : ungetc (chr (some x)) r <:+ x :: r := by
  by_cases h : x = 255#8
  · subst h; exact List.suffix_cons _ _
  · rw [chr_ne h]; exact List.suffix_rfl

theorem getc_suffix (inp : List Byte) : (getc inp).2 <:+ inp := by
  cases inp with
  | nil => exact List.suffix_rfl
  | cons b r => exact List.suffix_cons _ _

theorem readNamed_suffix : ∀ (s inp : List Byte), Holds (fun r => r <:+ inp) (readNamed s inp)
  | [], inp => .ok List.suffix_rfl
  | s :: ss, inp => by
    rw [readNamed]
    exact .ite (fun _ => (readNamed_suffix ss _).mono fun _ h => h.trans (getc_suffix _)) (fun _ => .err)

theorem readChar_suffix (inp : List Byte) : Holds (fun q => q.2 <:+ inp.tail) (readChar inp) := by
  cases inp with
  | nil => exact .err
  | cons b r =>
    simp only [readChar]
    refine (Holds.any _).bind fun _ _ => ?_
    split
    · refine (readNamed_suffix _ r).bind fun r' hr => (Holds.any _).bind fun _ _ => .ok hr
    · exact (Holds.any _).bind fun _ _ => .ok List.suffix_rfl

theorem symEnd_suffix (buf : List Byte) (c : Ci) (inp : List Byte) : Holds (fun q => q.2 <:+ ungetc c inp) (symEnd buf c inp) := by
  unfold symEnd
  exact .ite (fun _ => .ok List.suffix_rfl) (fun _ => .ub)

theorem symLoop_suffix : ∀ (inp buf : List Byte) (c : Ci), Holds (fun q => q.2 <:+ ungetc c inp) (symLoop buf c inp)
  | [], buf, c => by
    rw [symLoop]
    refine (Holds.any _).bind fun d _ => ?_
    split
    · refine (Holds.any _).bind fun buf' _ => (symEnd_suffix _ _ _).mono fun q h => ?_
      exact h.trans (List.suffix_cons _ _)
    · exact symEnd_suffix _ _ _
  | x :: r, buf, c => by
    rw [symLoop]
    refine (Holds.any _).bind fun d _ => ?_
    split
    · refine (Holds.any _).bind fun buf' _ => (symLoop_suffix r buf' _).mono fun q h => ?_
      exact (h.trans (ungetc_chr x r)).trans (List.suffix_cons _ _)
    · exact symEnd_suffix _ _ _

/-- a symbol consumes its first character -/
theorem symLoop_first (inp buf : List Byte) {b : Byte} (hb : delimC (some b) = .ok false) : Holds (fun q => q.2 <:+ inp) (symLoop buf (some b) inp) := by
  cases inp with
  | nil =>
    rw [symLoop, hb, Res.ok_bind]
    exact (Holds.any _).bind fun buf' _ => symEnd_suffix _ _ _
  | cons x r =>
    rw [symLoop, hb, Res.ok_bind]
    exact (Holds.any _).bind fun buf' _ => (symLoop_suffix r buf' _).mono fun q h => h.trans (ungetc_chr x r)

theorem digLoop_suffix (base : Nat) (p : Byte → Bool) (val : Byte → Nat) : ∀ (inp buf : List Byte) (num : Nat),
    Holds (fun q => ungetc q.2.2.1 q.2.2.2 <:+ inp) (digLoop base p val buf num inp)
  | [], buf, num => by rw [digLoop]; exact .ok List.suffix_rfl
  | x :: r, buf, num => by
    rw [digLoop]
    refine (Holds.any _).bind fun d _ => .ite (fun _ => ?_) (fun _ => .ok (ungetc_chr x r))
    refine (Holds.any _).bind fun buf' _ => .ite (fun _ => .ub) (fun _ => ?_)
    exact (digLoop_suffix base p val r buf' _).mono fun q h => h.trans (List.suffix_cons _ _)

theorem readNum_tail (base : Nat) (p : Byte → Bool) (val : Byte → Nat) (c : Ci) (inp out : List Byte)
    (h : ∀ buf num, Holds (fun q => ungetc q.2.2.1 q.2.2.2 <:+ out) (digLoop base p val buf num (if c = some 45#8 ∨ c = some 43#8 then inp else ungetc c inp))) :
    Holds (fun q => q.2 <:+ out) (readNum base p val c inp) := by
  unfold readNum
  refine (Holds.any _).bind fun start _ => (h _ _).bind fun q hq => (Holds.any _).bind fun d _ => .ite (fun _ => .ok hq) (fun _ => ?_)
  exact (symLoop_suffix _ _ _).mono fun q' h' => h'.trans hq

theorem readNum_suffix (base : Nat) (p : Byte → Bool) (val : Byte → Nat) (c : Ci) (inp : List Byte) :
    Holds (fun q => q.2 <:+ ungetc c inp) (readNum base p val c inp) := by
  refine readNum_tail _ _ _ _ _ _ fun buf num => (digLoop_suffix _ _ _ _ _ _).mono fun q h => h.trans ?_
  split
  · cases c with
    | none => exact List.suffix_rfl
    | some b => exact List.suffix_cons _ _
  · exact List.suffix_rfl

/-- a number consumes its first character -/
theorem readNum_first (inp : List Byte) {c : Ci} (hc : ∃ b, c = some b ∧ (b = 45#8 ∨ b = 43#8 ∨ digitB b = true)) (val : Byte → Nat) :
    Holds (fun q => q.2 <:+ inp) (readNum 10 digitB val c inp) := by
  refine readNum_tail _ _ _ _ _ _ fun buf num => ?_
  split
  · exact digLoop_suffix _ _ _ _ _ _
  · rename_i hn
    obtain ⟨b, rfl, hb⟩ := hc
    have hd : digitB b = true := by
      rcases hb with rfl | rfl | hb
      · simp at hn
      · simp at hn
      · exact hb
    have hf := digit_facts b hd
    simp only [ungetc]
    rw [digLoop, chr_ne (msb_ne b hf.1)]
    rw [ctype_ok hf.1, Res.ok_bind, hd]
    simp only [if_true]
    exact (Holds.any _).bind fun buf' _ => .ite (fun _ => .ub) (fun _ => digLoop_suffix _ _ _ _ _ _)

theorem strLoop_suffix : ∀ (m : Nat) (inp buf : List Byte), inp.length ≤ m → Holds (fun q => q.2 <:+ inp.tail) (strLoop buf inp)
  | _, [], buf, _ => by rw [strLoop]; exact .err
  | 0, x :: r, _, h => by simp at h
  | m + 1, x :: r, buf, hm => by
    simp only [List.length_cons] at hm
    by_cases h1 : x = 34#8
    · subst h1; rw [strLoop_quote]
      exact .ite (fun _ => .ok List.suffix_rfl) (fun _ => .ub)
    · by_cases h3 : x = 255#8
      · subst h3
        rw [strLoop.eq_def]
        simp only
        rw [if_neg (by decide)]
        exact .err
      by_cases h2 : x = 92#8
      · subst h2
        cases r with
        | nil =>
          rw [strLoop.eq_def]
          simp only
          rw [if_neg (by decide)]
          simp only [if_true]
          exact (Holds.any _).bind fun _ _ => .err
        | cons y r' =>
          simp only [List.length_cons] at hm
          rw [strLoop_escape]
          refine (Holds.any _).bind fun b _ => (Holds.any _).bind fun buf' _ => (strLoop_suffix m r' buf' (by omega)).mono fun q h => ?_
          exact (h.trans (List.tail_suffix _)).trans (List.suffix_cons _ _)
      · rw [strLoop_plain h1 h2 h3]
        refine (Holds.any _).bind fun buf' _ => (strLoop_suffix m r buf' (by omega)).mono fun q h => ?_
        exact h.trans (List.tail_suffix _)

theorem blockLoop_suffix : ∀ (m : Nat) (l : Nat) (inp : List Byte), inp.length ≤ m → Holds (fun r => r <:+ inp) (blockLoop l inp)
  | _, 0, inp, _ => by rw [blockLoop]; exact .ok List.suffix_rfl
  | _, l + 1, [], _ => by rw [blockLoop]; exact .err
  | 0, l + 1, x :: r, h => by simp at h
  | m + 1, l + 1, x :: r, hm => by
    simp only [List.length_cons] at hm
    rw [blockLoop.eq_def]
    simp only
    refine (Holds.any _).bind fun _ _ => .ite (fun _ => ?_) (fun _ => .ite (fun _ => ?_) (fun _ => ?_))
    · cases r with
      | nil => exact .err
      | cons y r' =>
        simp only [List.length_cons] at hm
        refine (Holds.any _).bind fun _ _ => (blockLoop_suffix m _ r' (by omega)).mono fun q h => ?_
        exact (h.trans (List.suffix_cons _ _)).trans (List.suffix_cons _ _)
    · cases r with
      | nil => exact .err
      | cons y r' =>
        simp only [List.length_cons] at hm
        refine (Holds.any _).bind fun _ _ => (blockLoop_suffix m _ r' (by omega)).mono fun q h => ?_
        exact (h.trans (List.suffix_cons _ _)).trans (List.suffix_cons _ _)
    · exact (blockLoop_suffix m _ r (by omega)).mono fun q h => h.trans (List.suffix_cons _ _)

theorem readAtom_suffix (c : Ci) (r : List Byte) : Holds (fun q => q.2 <:+ r) (readAtom c r) := by
  unfold readAtom
  intro q hq
  obtain ⟨dg, h1, h2⟩ := Res.bind_eq_ok.1 hq
  revert h2 q
  intro q _ h2
  refine Holds.ite (P := fun q : Dat × List Byte => q.2 <:+ r) (fun hc => ?_) (fun _ => ?_) q h2
  · cases c with
    | none =>
      have : dg = false := by cases h1; rfl
      subst this
      simp at hc
    | some b =>
      refine readNum_first r ⟨b, rfl, ?_⟩ _
      cases hm : b.msb with
      | true => simp [ctype, hm] at h1
      | false =>
        rw [ctype_ok hm] at h1
        cases h1
        simp only [Bool.or_eq_true, Bool.and_eq_true, beq_iff_eq, Option.some.injEq] at hc
        rcases hc with h | ⟨h | h, _⟩
        · exact Or.inr (Or.inr h)
        · exact Or.inl h
        · exact Or.inr (Or.inl h)
  · refine .ite (fun _ => (strLoop_suffix _ r [] (Nat.le_refl _)).mono fun q h => h.trans (List.tail_suffix _)) (fun _ => ?_)
    intro q hq
    obtain ⟨d, h3, h4⟩ := Res.bind_eq_ok.1 hq
    refine Holds.ite (P := fun q : Dat × List Byte => q.2 <:+ r) (fun hd => ?_) (fun _ => .ite (fun _ => .ok List.suffix_rfl) (fun _ => .err)) q h4
    have hd' : d = false := by simpa using hd
    subst hd'
    cases c with
    | none => cases h3
    | some b => exact symLoop_first r [] h3

theorem readEnd_suffix (o : Byte) (d : Dat) (inp : List Byte) : Holds (fun q => q.2 <:+ inp) (readEnd o d inp) := by
  cases inp with
  | nil => exact .err
  | cons x r =>
    rw [readEnd]
    exact (Holds.any _).bind fun _ _ => .ite (fun _ => .ite (fun _ => .ok (List.suffix_cons _ _)) (fun _ => .err)) (fun _ => .err)

theorem tail_skip_suffix (inp : List Byte) : (skip false inp).tail <:+ inp := (List.tail_suffix _).trans (skip_suffix _ _)

/-- every read consumes a prefix of the input, at least one character behind the white space unless the input ends there -/
theorem read_suffix : ∀ n : Nat, (∀ inp, Holds (fun q => q.2 <:+ (skip false inp).tail) (readObj n inp)) ∧
    (∀ inp, Holds (fun q => q.2 <:+ inp) (readHash n inp)) ∧ (∀ o inp, Holds (fun q => q.2 <:+ (skip false inp).tail) (readPair n o inp)) ∧
    (∀ o d inp, Holds (fun q => q.2 <:+ inp) (readRest n o d inp)) ∧ (∀ inp acc, Holds (fun q => q.2 <:+ inp) (readVec n inp acc))
  | 0 => ⟨fun _ => by rw [readObj]; exact .oof, fun _ => by rw [readHash]; exact .oof, fun _ _ => by rw [readPair]; exact .oof,
      fun _ _ _ => by rw [readRest]; exact .oof, fun _ _ => by rw [readVec]; exact .oof⟩
  | n + 1 => by
    obtain ⟨hO, hH, hP, hR, hV⟩ := read_suffix n
    have hO' : ∀ inp, Holds (fun q : Dat × List Byte => q.2 <:+ inp) (readObj n inp) := fun inp => (hO inp).mono fun q h => h.trans (tail_skip_suffix _)
    have hP' : ∀ o inp, Holds (fun q : Dat × List Byte => q.2 <:+ inp) (readPair n o inp) := fun o inp => (hP o inp).mono fun q h => h.trans (tail_skip_suffix _)
    refine ⟨fun inp => ?_, fun inp => ?_, fun o inp => ?_, fun o d inp => ?_, fun inp acc => ?_⟩
    · rw [readObj]
      split
      · rename_i h; rw [h]; exact readAtom_suffix none []
      · rename_i x r h
        rw [h]
        refine .ite (fun _ => hH r) (fun _ => .ite (fun _ => hP' x r) (fun _ => .ite (fun _ => ?_) (fun _ => readAtom_suffix _ _)))
        exact (hO' r).bind fun q hq => .ok hq
    · cases inp with
      | nil => rw [readHash]; exact .err
      | cons x r =>
        have hx : r <:+ x :: r := List.suffix_cons _ _
        rw [readHash]
        refine .ite (fun _ => symLoop_first _ _ (by decide)) (fun _ => .ite (fun _ => .ok hx) (fun _ => .ite (fun _ => .ok hx) (fun _ => .ite (fun _ => ?_) (fun _ =>
          .ite (fun _ => ?_) (fun _ => .ite (fun _ => ?_) (fun _ => .ite (fun _ => ?_) (fun _ => .ite (fun _ => ?_) (fun _ => .ite (fun _ => ?_) (fun _ =>
          .ite (fun _ => ?_) (fun _ => .err))))))))))
        · exact (readChar_suffix r).bind fun q hq => .ok ((hq.trans (List.tail_suffix _)).trans hx)
        · exact (hO' r).bind fun q hq => .ok (hq.trans hx)
        · exact (hV r []).mono fun q h => h.trans hx
        · exact (hO' r).bind fun q hq => .ok (hq.trans hx)
        · refine (readNum_suffix _ _ _ _ _).mono fun q h => h.trans ?_
          cases r with
          | nil => exact hx
          | cons y r' => exact (ungetc_chr y r').trans hx
        · refine (Holds.any _).bind fun _ _ => (hO' _).bind fun q hq => (hO' _).mono fun q' h => ?_
          exact ((h.trans hq).trans (skip_suffix _ _)).trans hx
        · refine (blockLoop_suffix _ 1 r (Nat.le_refl _)).bind fun r' hr => (hO' r').mono fun q h => (h.trans hr).trans hx
    · rw [readPair]
      split
      · exact .err
      · rename_i x r h
        refine (Holds.any _).bind fun _ _ => .ite (fun _ => .ite (fun _ => .ok (by rw [h]; exact List.suffix_rfl)) (fun _ => .err)) (fun _ => ?_)
        rw [← h, readObj_skip]
        refine (hO inp).bind fun q hq => (hR o q.1 _).mono fun q' h' => ?_
        exact (h'.trans (skip_suffix _ _)).trans hq
    · cases inp with
      | nil => rw [readRest]; exact .err
      | cons y r =>
        rw [readRest]
        refine (Holds.any _).bind fun _ _ => .ite (fun _ => ?_) (fun _ => ?_)
        · refine (Holds.any _).bind fun _ _ => (hO' r).bind fun e he => (readEnd_suffix _ _ _).mono fun q h => ?_
          exact ((h.trans (skip_suffix _ _)).trans he).trans (List.suffix_cons _ _)
        · exact (hP' o _).bind fun e he => .ok he
    · rw [readVec]
      refine .ite (fun _ => ?_) (fun _ => ?_)
      · exact (readChar_suffix _).bind fun q hq => .ok (hq.trans (tail_skip_suffix _))
      · rw [readObj_skip]
        exact (hO' inp).bind fun q hq => (hV q.2 _).mono fun q' h => h.trans hq

/-! ### more fuel changes no outcome -/

theorem read_le : ∀ n : Nat, (∀ inp, Res.Le (readObj n inp) (readObj (n + 1) inp)) ∧ (∀ inp, Res.Le (readHash n inp) (readHash (n + 1) inp)) ∧
    (∀ o inp, Res.Le (readPair n o inp) (readPair (n + 1) o inp)) ∧ (∀ o d inp, Res.Le (readRest n o d inp) (readRest (n + 1) o d inp)) ∧
    (∀ inp acc, Res.Le (readVec n inp acc) (readVec (n + 1) inp acc))
  | 0 => ⟨fun _ => Or.inl (by rw [readObj]), fun _ => Or.inl (by rw [readHash]), fun _ _ => Or.inl (by rw [readPair]), fun _ _ _ => Or.inl (by rw [readRest]),
      fun _ _ => Or.inl (by rw [readVec])⟩
  | n + 1 => by
    obtain ⟨hO, hH, hP, hR, hV⟩ := read_le n
    refine ⟨fun inp => ?_, fun inp => ?_, fun o inp => ?_, fun o d inp => ?_, fun inp acc => ?_⟩
    · rw [readObj, readObj]
      split
      · exact .refl _
      · exact .ite (hH _) (.ite (hP _ _) (.ite (.bind (hO _) fun _ => .refl _) (.refl _)))
    · cases inp with
      | nil => rw [readHash, readHash]; exact .refl _
      | cons x r =>
        rw [readHash, readHash]
        exact .ite (.refl _) (.ite (.refl _) (.ite (.refl _) (.ite (.refl _) (.ite (.bind (hO _) fun _ => .refl _) (.ite (hV _ _)
          (.ite (.bind (hO _) fun _ => .refl _) (.ite (.refl _) (.ite (.bind (.refl _) fun _ => .bind (hO _) fun _ => hO _)
          (.ite (.bind (.refl _) fun _ => hO _) (.refl _))))))))))
    · rw [readPair, readPair]
      split
      · exact .refl _
      · exact .bind (.refl _) fun _ => .ite (.refl _) (.bind (hO _) fun _ => hR _ _ _)
    · cases inp with
      | nil => rw [readRest, readRest]; exact .refl _
      | cons y r =>
        rw [readRest, readRest]
        exact .bind (.refl _) fun _ => .ite (.bind (.refl _) fun _ => .bind (hO _) fun _ => .refl _) (.bind (hP _ _) fun _ => .refl _)
    · rw [readVec, readVec]
      exact .ite (.refl _) (.bind (hO _) fun _ => hV _ _)

theorem readObj_le {n m : Nat} (h : n ≤ m) (inp : List Byte) : Res.Le (readObj n inp) (readObj m inp) := by
  induction h with
  | refl => exact .refl _
  | step _ ih => exact ih.trans ((read_le _).1 inp)

/-! ### termination -/

/-- no vector syntax `#(` (specification) -/
def NoVec (inp : List Byte) : Prop := ¬ [35#8, 40#8] <:+: inp

theorem NoVec.suffix {a b : List Byte} (h : NoVec b) (hs : a <:+ b) : NoVec a := fun hi => h (hi.trans hs.isInfix)

theorem Holds_ne_oof {α β : Type} {P : α → Prop} {x : Res α} {f : α → Res β} (hP : Holds P x) (hx : x ≠ .oof) (hf : ∀ a, P a → f a ≠ .oof) :
    (x >>= f) ≠ .oof := by
  cases x with
  | ok a => exact hf a (hP a rfl)
  | err => nofun
  | ub => nofun
  | oof => exact absurd rfl hx

theorem ite_ne_oof {α : Type} {c : Prop} [Decidable c] {a b : Res α} (h1 : c → a ≠ .oof) (h2 : ¬ c → b ≠ .oof) : (if c then a else b) ≠ .oof := by
  split
  · exact h1 ‹_›
  · exact h2 ‹_›

theorem notEof_oof (c : Ci) : notEof c ≠ .oof := by unfold notEof; split <;> nofun
theorem ctype_oof (p : Byte → Bool) (e : Bool) (c : Ci) : ctype p e c ≠ .oof := by
  cases c with
  | none => nofun
  | some b => rw [ctype]; split <;> nofun
theorem delimC_oof (c : Ci) : delimC c ≠ .oof := ctype_oof _ _ _
theorem expectDelim_oof (inp : List Byte) : expectDelim inp ≠ .oof :=
  Holds_ne_oof (Holds.any _) (delimC_oof _) fun _ _ => ite_ne_oof (fun _ => nofun) (fun _ => nofun)
theorem readNamed_oof : ∀ (s inp : List Byte), readNamed s inp ≠ .oof
  | [], inp => nofun
  | s :: ss, inp => by rw [readNamed]; exact ite_ne_oof (fun _ => readNamed_oof _ _) (fun _ => nofun)
theorem readChar_oof (inp : List Byte) : readChar inp ≠ .oof := by
  cases inp with
  | nil => nofun
  | cons b r =>
    simp only [readChar]
    refine Holds_ne_oof (Holds.any _) (notEof_oof _) fun _ _ => ?_
    split
    · exact Holds_ne_oof (Holds.any _) (readNamed_oof _ _) fun _ _ => Holds_ne_oof (Holds.any _) (expectDelim_oof _) fun _ _ => nofun
    · exact Holds_ne_oof (Holds.any _) (expectDelim_oof _) fun _ _ => nofun
theorem push_oof (buf : List Byte) (b : Byte) : push buf b ≠ .oof := by unfold push; split <;> nofun
theorem poke_oof (buf : List Byte) (b : Byte) : poke buf b ≠ .oof := by unfold poke; split <;> nofun
theorem symEnd_oof (buf : List Byte) (c : Ci) (inp : List Byte) : symEnd buf c inp ≠ .oof := by unfold symEnd; split <;> nofun
theorem symLoop_oof : ∀ (inp buf : List Byte) (c : Ci), symLoop buf c inp ≠ .oof
  | [], buf, c => by
    rw [symLoop]
    refine Holds_ne_oof (Holds.any _) (delimC_oof _) fun d _ => ?_
    split
    · exact Holds_ne_oof (Holds.any _) (push_oof _ _) fun _ _ => symEnd_oof _ _ _
    · exact symEnd_oof _ _ _
  | x :: r, buf, c => by
    rw [symLoop]
    refine Holds_ne_oof (Holds.any _) (delimC_oof _) fun d _ => ?_
    split
    · exact Holds_ne_oof (Holds.any _) (push_oof _ _) fun _ _ => symLoop_oof _ _ _
    · exact symEnd_oof _ _ _
theorem digLoop_oof (base : Nat) (p : Byte → Bool) (val : Byte → Nat) : ∀ (inp buf : List Byte) (num : Nat), digLoop base p val buf num inp ≠ .oof
  | [], buf, num => by rw [digLoop]; nofun
  | x :: r, buf, num => by
    rw [digLoop]
    refine Holds_ne_oof (Holds.any _) (ctype_oof _ _ _) fun d _ => ite_ne_oof (fun _ => ?_) (fun _ => nofun)
    exact Holds_ne_oof (Holds.any _) (poke_oof _ _) fun _ _ => ite_ne_oof (fun _ => nofun) (fun _ => digLoop_oof _ _ _ _ _ _)
theorem readNum_oof (base : Nat) (p : Byte → Bool) (val : Byte → Nat) (c : Ci) (inp : List Byte) : readNum base p val c inp ≠ .oof := by
  unfold readNum
  refine Holds_ne_oof (Holds.any _) (ite_ne_oof (fun _ => poke_oof _ _) (fun _ => ite_ne_oof (fun _ => nofun) (fun _ => poke_oof _ _))) fun _ _ => ?_
  refine Holds_ne_oof (Holds.any _) (digLoop_oof _ _ _ _ _ _) fun _ _ => Holds_ne_oof (Holds.any _) (delimC_oof _) fun _ _ => ?_
  exact ite_ne_oof (fun _ => nofun) (fun _ => symLoop_oof _ _ _)
theorem escape_oof (c : Ci) : escape c ≠ .oof := by unfold escape; split <;> nofun
theorem strLoop_oof : ∀ (m : Nat) (inp buf : List Byte), inp.length ≤ m → strLoop buf inp ≠ .oof
  | _, [], buf, _ => by rw [strLoop]; nofun
  | 0, x :: r, _, h => by simp at h
  | m + 1, x :: r, buf, hm => by
    simp only [List.length_cons] at hm
    by_cases h1 : x = 34#8
    · subst h1; rw [strLoop_quote]; exact ite_ne_oof (fun _ => nofun) (fun _ => nofun)
    · by_cases h3 : x = 255#8
      · subst h3
        rw [strLoop.eq_def]
        simp only
        rw [if_neg (by decide)]
        nofun
      by_cases h2 : x = 92#8
      · subst h2
        cases r with
        | nil =>
          rw [strLoop.eq_def]
          simp only
          rw [if_neg (by decide)]
          simp only [if_true]
          exact Holds_ne_oof (Holds.any _) (notEof_oof _) fun _ _ => nofun
        | cons y r' =>
          simp only [List.length_cons] at hm
          rw [strLoop_escape]
          exact Holds_ne_oof (Holds.any _) (escape_oof _) fun _ _ => Holds_ne_oof (Holds.any _) (push_oof _ _) fun _ _ => strLoop_oof m r' _ (by omega)
      · rw [strLoop_plain h1 h2 h3]
        exact Holds_ne_oof (Holds.any _) (push_oof _ _) fun _ _ => strLoop_oof m r _ (by omega)
theorem blockLoop_oof : ∀ (m : Nat) (l : Nat) (inp : List Byte), inp.length ≤ m → blockLoop l inp ≠ .oof
  | _, 0, inp, _ => by rw [blockLoop]; nofun
  | _, l + 1, [], _ => by rw [blockLoop]; nofun
  | 0, l + 1, x :: r, h => by simp at h
  | m + 1, l + 1, x :: r, hm => by
    simp only [List.length_cons] at hm
    rw [blockLoop.eq_def]
    simp only
    refine Holds_ne_oof (Holds.any _) (notEof_oof _) fun _ _ => ite_ne_oof (fun _ => ?_) (fun _ => ite_ne_oof (fun _ => ?_) (fun _ => ?_))
    · cases r with
      | nil => nofun
      | cons y r' =>
        simp only [List.length_cons] at hm
        exact Holds_ne_oof (Holds.any _) (notEof_oof _) fun _ _ => blockLoop_oof m _ r' (by omega)
    · cases r with
      | nil => nofun
      | cons y r' =>
        simp only [List.length_cons] at hm
        exact Holds_ne_oof (Holds.any _) (notEof_oof _) fun _ _ => blockLoop_oof m _ r' (by omega)
    · exact blockLoop_oof m _ r (by omega)
theorem readAtom_oof (c : Ci) (r : List Byte) : readAtom c r ≠ .oof := by
  unfold readAtom
  refine Holds_ne_oof (Holds.any _) (ctype_oof _ _ _) fun _ _ => ite_ne_oof (fun _ => readNum_oof _ _ _ _ _) (fun _ => ite_ne_oof (fun _ => strLoop_oof _ _ _ (Nat.le_refl _)) (fun _ => ?_))
  exact Holds_ne_oof (Holds.any _) (delimC_oof _) fun _ _ => ite_ne_oof (fun _ => symLoop_oof _ _ _) (fun _ => ite_ne_oof (fun _ => nofun) (fun _ => nofun))
theorem readEnd_oof (o : Byte) (d : Dat) (inp : List Byte) : readEnd o d inp ≠ .oof := by
  cases inp with
  | nil => nofun
  | cons x r =>
    rw [readEnd]
    exact Holds_ne_oof (Holds.any _) (notEof_oof _) fun _ _ => ite_ne_oof (fun _ => ite_ne_oof (fun _ => nofun) (fun _ => nofun)) (fun _ => nofun)

/-- without vectors, fuel three times the length of the input suffices -/
theorem read_ne_oof : ∀ n : Nat, (∀ inp, NoVec inp → 3 * inp.length + 1 ≤ n → readObj n inp ≠ .oof) ∧
    (∀ inp, NoVec (35#8 :: inp) → 3 * inp.length + 1 ≤ n → readHash n inp ≠ .oof) ∧ (∀ o inp, NoVec inp → 3 * inp.length + 2 ≤ n → readPair n o inp ≠ .oof) ∧
    (∀ o d inp, NoVec inp → 3 * inp.length + 3 ≤ n → readRest n o d inp ≠ .oof)
  | 0 => ⟨fun _ _ h => by omega, fun _ _ h => by omega, fun _ _ _ h => by omega, fun _ _ _ _ h => by omega⟩
  | n + 1 => by
    obtain ⟨hO, hH, hP, hR⟩ := read_ne_oof n
    obtain ⟨sO, _⟩ := read_suffix n
    have sO' : ∀ inp, Holds (fun q : Dat × List Byte => q.2 <:+ inp) (readObj n inp) := fun inp => (sO inp).mono fun q h => h.trans (tail_skip_suffix _)
    refine ⟨fun inp hv hn => ?_, fun inp hv hn => ?_, fun o inp hv hn => ?_, fun o d inp hv hn => ?_⟩
    · rw [readObj]
      have hs := skip_suffix false inp
      split
      · exact readAtom_oof _ _
      · rename_i x r h
        rw [h] at hs
        have hl := hs.length_le
        simp only [List.length_cons] at hl
        have hr := (List.suffix_cons x r).trans hs
        refine ite_ne_oof (fun e => ?_) (fun _ => ite_ne_oof (fun _ => hP _ _ (hv.suffix hr) (by omega)) (fun _ => ite_ne_oof (fun _ => ?_) (fun _ => readAtom_oof _ _)))
        · subst e; exact hH r (hv.suffix hs) (by omega)
        · exact Holds_ne_oof (Holds.any _) (hO r (hv.suffix hr) (by omega)) fun _ _ => nofun
    · cases inp with
      | nil => rw [readHash]; nofun
      | cons x r =>
        have hx : r <:+ x :: r := List.suffix_cons _ _
        have hr : NoVec r := hv.suffix (hx.trans (List.suffix_cons _ _))
        simp only [List.length_cons] at hn
        rw [readHash]
        refine ite_ne_oof (fun _ => symLoop_oof _ _ _) (fun _ => ite_ne_oof (fun _ => nofun) (fun _ => ite_ne_oof (fun _ => nofun) (fun _ => ite_ne_oof (fun _ => ?_) (fun _ =>
          ite_ne_oof (fun _ => ?_) (fun _ => ite_ne_oof (fun e => ?_) (fun _ => ite_ne_oof (fun _ => ?_) (fun _ => ite_ne_oof (fun _ => readNum_oof _ _ _ _ _) (fun _ => ite_ne_oof (fun _ => ?_) (fun _ =>
          ite_ne_oof (fun _ => ?_) (fun _ => nofun))))))))))
        · exact Holds_ne_oof (Holds.any _) (readChar_oof _) fun _ _ => nofun
        · exact Holds_ne_oof (Holds.any _) (hO r hr (by omega)) fun _ _ => nofun
        · subst e; exact absurd ⟨[], r, rfl⟩ hv
        · exact Holds_ne_oof (Holds.any _) (hO r hr (by omega)) fun _ _ => nofun
        · rw [readObj_skip]
          refine Holds_ne_oof (Holds.any _) (notEof_oof _) fun _ _ => Holds_ne_oof (sO' r) (hO r hr (by omega)) fun q hq => ?_
          have := hq.length_le
          exact hO q.2 (hr.suffix hq) (by omega)
        · refine Holds_ne_oof (blockLoop_suffix _ 1 r (Nat.le_refl _)) (blockLoop_oof _ 1 r (Nat.le_refl _)) fun r' hr' => ?_
          have := hr'.length_le
          exact hO r' (hr.suffix hr') (by omega)
    · rw [readPair]
      have hs := skip_suffix false inp
      split
      · nofun
      · rename_i x r h
        rw [h] at hs
        have hl := hs.length_le
        simp only [List.length_cons] at hl
        refine Holds_ne_oof (Holds.any _) (notEof_oof _) fun _ _ => ite_ne_oof (fun _ => ite_ne_oof (fun _ => nofun) (fun _ => nofun)) (fun _ => ?_)
        rw [← h, readObj_skip]
        refine Holds_ne_oof (sO inp) (hO inp hv (by omega)) fun q hq => ?_
        rw [h] at hq
        have h2 := (skip_suffix false q.2).trans (hq.trans ((List.tail_suffix _).trans hs))
        have h3 := ((skip_suffix false q.2).trans hq).length_le
        simp only [List.tail_cons] at h3
        exact hR o q.1 _ (hv.suffix h2) (by omega)
    · cases inp with
      | nil => rw [readRest]; nofun
      | cons y r =>
        simp only [List.length_cons] at hn
        rw [readRest]
        refine Holds_ne_oof (Holds.any _) (notEof_oof _) fun _ _ => ite_ne_oof (fun _ => ?_) (fun _ => ?_)
        · refine Holds_ne_oof (Holds.any _) (expectDelim_oof _) fun _ _ => ?_
          exact Holds_ne_oof (Holds.any _) (hO r (hv.suffix (List.suffix_cons _ _)) (by omega)) fun _ _ => readEnd_oof _ _ _
        · exact Holds_ne_oof (Holds.any _) (hP o _ hv (by simp only [List.length_cons]; omega)) fun _ _ => nofun

/-! ### memory safety -/

/-- the number of characters a string body denotes, counting every backslash with its follower as one (specification) -/
inductive StrLen : List Byte → Nat → Prop
  | nil : StrLen [] 0
  | plain {b : Byte} {ps : List Byte} {k : Nat} : b ≠ 34#8 → b ≠ 92#8 → StrLen ps k → StrLen (b :: ps) (k + 1)
  | esc {b : Byte} {ps : List Byte} {k : Nat} : StrLen ps k → StrLen (92#8 :: b :: ps) (k + 1)

/-- input that the reader handles without undefined behaviour (specification): ASCII only, fewer than 4095 characters between
delimiters, fewer than 16 digits in a row, no string of exactly 4096 characters -/
structure Safe (inp : List Byte) : Prop where
  ascii : ∀ b ∈ inp, b.msb = false
  tok : ∀ w, w <:+: inp → (∀ b ∈ w, delimB b = false) → w.length < 4095
  num : ∀ w, w <:+: inp → (∀ b ∈ w, xdigitB b = true) → w.length < 16
  str : ∀ ps, 34#8 :: (ps ++ [34#8]) <:+: inp → ¬ StrLen ps 4096

theorem Safe.suffix {a b : List Byte} (h : Safe b) (hs : a <:+ b) : Safe a :=
  ⟨fun x hx => h.ascii x (hs.subset hx), fun w hw => h.tok w (hw.trans hs.isInfix), fun w hw => h.num w (hw.trans hs.isInfix), fun ps hp => h.str ps (hp.trans hs.isInfix)⟩

/-- the length of the longest prefix all of whose characters satisfy `p` (auxiliary) -/
def runLen (p : Byte → Bool) (l : List Byte) : Nat := (l.takeWhile p).length

theorem runLen_cons {p : Byte → Bool} {b : Byte} {l : List Byte} (h : p b = true) : runLen p (b :: l) = runLen p l + 1 := by
  simp [runLen, h]

theorem takeWhile_mem {p : Byte → Bool} : ∀ {l : List Byte} {b : Byte}, b ∈ l.takeWhile p → p b = true
  | [], _, h => by simp at h
  | x :: l, b, h => by
    cases hx : p x with
    | false => simp [hx] at h
    | true =>
      simp only [List.takeWhile_cons, hx, if_true, List.mem_cons] at h
      rcases h with rfl | h
      · exact hx
      · exact takeWhile_mem h

theorem Safe.run {inp : List Byte} (h : Safe inp) : runLen (fun b => !delimB b) inp < 4095 ∧ runLen xdigitB inp < 16 := by
  constructor
  · refine h.tok _ (List.takeWhile_prefix _).isInfix fun b hb => ?_
    have := takeWhile_mem hb
    simpa using this
  · exact h.num _ (List.takeWhile_prefix _).isInfix fun b hb => takeWhile_mem hb

theorem ite_ne_ub {α : Type} {c : Prop} [Decidable c] {a b : Res α} (h1 : c → a ≠ .ub) (h2 : ¬ c → b ≠ .ub) : (if c then a else b) ≠ .ub := by
  split
  · exact h1 ‹_›
  · exact h2 ‹_›

theorem bind_ne_ub {α β : Type} {P : α → Prop} {x : Res α} {f : α → Res β} (hP : Holds P x) (hx : x ≠ .ub) (hf : ∀ a, P a → f a ≠ .ub) :
    (x >>= f) ≠ .ub := by
  cases x with
  | ok a => exact hf a (hP a rfl)
  | err => nofun
  | oof => nofun
  | ub => exact absurd rfl hx

theorem notEof_ub (c : Ci) : notEof c ≠ .ub := by unfold notEof; split <;> nofun
theorem ctype_ub (p : Byte → Bool) (e : Bool) {c : Ci} (h : ∀ b, c = some b → b.msb = false) : ctype p e c ≠ .ub := by
  cases c with
  | none => nofun
  | some b => rw [ctype_ok (h b rfl)]; nofun
theorem chr_msb {b : Byte} (h : b.msb = false) : chr (some b) = some b := chr_ne (msb_ne b h)
theorem expectDelim_ub {inp : List Byte} (h : ∀ b ∈ inp, b.msb = false) : expectDelim inp ≠ .ub := by
  unfold expectDelim
  refine bind_ne_ub (Holds.any _) (ctype_ub _ _ fun b hb => ?_) fun _ _ => ite_ne_ub (fun _ => nofun) (fun _ => nofun)
  cases inp with
  | nil => cases hb
  | cons x r =>
    have hx := h x (by simp)
    simp only [peek, getc] at hb
    rw [chr_msb hx] at hb
    cases hb; exact hx
theorem readNamed_ub : ∀ (s inp : List Byte), readNamed s inp ≠ .ub
  | [], inp => nofun
  | s :: ss, inp => by rw [readNamed]; exact ite_ne_ub (fun _ => readNamed_ub _ _) (fun _ => nofun)
theorem readChar_ub {inp : List Byte} (h : ∀ b ∈ inp, b.msb = false) : readChar inp ≠ .ub := by
  cases inp with
  | nil => nofun
  | cons b r =>
    have hr : ∀ b ∈ r, b.msb = false := fun x hx => h x (by simp [hx])
    simp only [readChar]
    refine bind_ne_ub (Holds.any _) (notEof_ub _) fun _ _ => ?_
    split
    · exact bind_ne_ub (readNamed_suffix _ r) (readNamed_ub _ _) fun r' hr' => bind_ne_ub (Holds.any _) (expectDelim_ub fun x hx => hr x (hr'.subset hx)) fun _ _ => nofun
    · exact bind_ne_ub (Holds.any _) (expectDelim_ub hr) fun _ _ => nofun
theorem push_ub (buf : List Byte) (b : Byte) : push buf b ≠ .ub := by unfold push; split <;> nofun
theorem push_len (buf : List Byte) (b : Byte) : Holds (fun r => r.length = buf.length + 1 ∧ buf.length < 4096) (push buf b) := by
  unfold push maxLen
  exact .ite (fun _ => .err) (fun h => .ok (by simp; omega))
theorem symEnd_ub {buf : List Byte} (h : buf.length < 4096) (c : Ci) (inp : List Byte) : symEnd buf c inp ≠ .ub := by
  unfold symEnd maxLen; rw [if_pos h]; nofun

theorem symLoop_ub : ∀ (inp buf : List Byte) (c : Ci), (∀ b ∈ ungetc c inp, b.msb = false) → (c = none → buf.length < 4096) →
    (c ≠ none → buf.length + runLen (fun b => !delimB b) (ungetc c inp) < 4096) → symLoop buf c inp ≠ .ub
  | inp, buf, none, ha, h0, _ => by
    cases inp with
    | nil => rw [symLoop]; exact symEnd_ub (h0 rfl) _ _
    | cons x r => rw [symLoop]; exact symEnd_ub (h0 rfl) _ _
  | inp, buf, some b, ha, _, h => by
    have hb : b.msb = false := ha b (by simp [ungetc])
    have h := h nofun
    simp only [ungetc] at h
    cases hd : delimB b with
    | true =>
      have hl : buf.length < 4096 := by omega
      cases inp with
      | nil => rw [symLoop, delimC_some hb, hd]; exact symEnd_ub hl _ _
      | cons x r => rw [symLoop, delimC_some hb, hd]; exact symEnd_ub hl _ _
    | false =>
      rw [runLen_cons (by simp [hd])] at h
      cases inp with
      | nil =>
        rw [symLoop, delimC_some hb, hd, Res.ok_bind]
        exact bind_ne_ub (push_len _ _) (push_ub _ _) fun buf' hb' => symEnd_ub (by omega) _ _
      | cons x r =>
        rw [symLoop, delimC_some hb, hd, Res.ok_bind]
        have hx : x.msb = false := ha x (by simp [ungetc])
        refine bind_ne_ub (push_len _ _) (push_ub _ _) fun buf' hb' => ?_
        rw [chr_msb hx]
        exact symLoop_ub r buf' (some x) (fun y hy => ha y (by simp only [ungetc] at hy ⊢; simp [hy])) nofun (fun _ => by simp only [ungetc]; omega)

theorem poke_spec {buf : List Byte} (h : buf.length < 4096) (b : Byte) : poke buf b = .ok (buf ++ [b]) := by
  unfold poke maxLen; rw [if_neg (by omega)]

theorem digLoop_safe (base : Nat) (p : Byte → Bool) (val : Byte → Nat) (hbase : base ≤ 16) (hp : ∀ b, p b = true → xdigitB b = true ∧ val b < base) :
    ∀ (inp buf : List Byte) (num k : Nat), (∀ b ∈ inp, b.msb = false) → buf.length + runLen (fun b => !delimB b) inp < 4096 →
      k + runLen xdigitB inp ≤ 15 → num < 16 ^ k →
      digLoop base p val buf num inp ≠ .ub ∧ Holds (fun q => q.1.length + runLen (fun b => !delimB b) (ungetc q.2.2.1 q.2.2.2) < 4096 ∧
        ungetc q.2.2.1 q.2.2.2 <:+ inp) (digLoop base p val buf num inp)
  | [], buf, num, k, _, h, _, _ => by rw [digLoop]; exact ⟨nofun, .ok ⟨h, List.suffix_rfl⟩⟩
  | x :: r, buf, num, k, ha, hl, hk, hnum => by
    have hx : x.msb = false := ha x (by simp)
    rw [digLoop]
    simp only [chr_msb hx, ctype_ok hx, Res.ok_bind]
    cases hpx : p x with
    | false =>
      simp only [Bool.false_eq_true, if_false]
      exact ⟨nofun, .ok ⟨hl, List.suffix_rfl⟩⟩
    | true =>
      simp only [if_true]
      obtain ⟨h1, h2⟩ := hp x hpx
      have hnd := (xdigit_facts x h1).2.1
      rw [runLen_cons (by simp [hnd])] at hl
      rw [runLen_cons h1] at hk
      rw [poke_spec (by omega), Res.ok_bind]
      have hb : num * base + val x < 16 ^ (k + 1) := by
        have h3 : (num + 1) * base ≤ 16 ^ k * 16 := Nat.mul_le_mul (by omega) hbase
        have h4 : (num + 1) * base = num * base + base := by rw [Nat.add_mul, Nat.one_mul]
        rw [Nat.pow_succ]
        omega
      have h15 : 16 ^ (k + 1) ≤ 16 ^ 15 := Nat.pow_le_pow_right (by omega) (by omega)
      have h16 : (16 : Nat) ^ 15 ≤ maxFix := by decide
      rw [if_neg (by omega)]
      obtain ⟨g1, g2⟩ := digLoop_safe base p val hbase hp r (buf ++ [x]) (num * base + val x) (k + 1) (fun b hb => ha b (by simp [hb]))
        (by simp only [List.length_append, List.length_cons, List.length_nil]; omega) (by omega) hb
      exact ⟨g1, g2.mono fun q h => ⟨h.1, h.2.trans (List.suffix_cons _ _)⟩⟩

theorem dec_safe : ∀ b : Byte, digitB b = true → xdigitB b = true ∧ (fun b : Byte => b.toNat - 48) b < 10 := by decide
theorem hex_safe : ∀ b : Byte, xdigitB b = true → xdigitB b = true ∧ xval b < 16 := by decide

theorem runLen_tail (p : Byte → Bool) (x : Byte) (l : List Byte) : p x = true → runLen p l < runLen p (x :: l) := by
  intro h; rw [runLen_cons h]; omega

theorem readNum_ub (base : Nat) (p : Byte → Bool) (val : Byte → Nat) (hbase : base ≤ 16) (hp : ∀ b, p b = true → xdigitB b = true ∧ val b < base)
    {c : Ci} {inp : List Byte} (hs : Safe (ungetc c inp)) : readNum base p val c inp ≠ .ub := by
  have hrun := hs.run
  have hsub : inp <:+ ungetc c inp := by
    cases c with
    | none => exact List.suffix_rfl
    | some b => exact List.suffix_cons _ _
  have hstart : Holds (fun st : List Byte => st.length ≤ 1 ∧ st.length + runLen (fun b => !delimB b) (if c = some 45#8 ∨ c = some 43#8 then inp else ungetc c inp) < 4096)
      (if c = some 45#8 then poke [] 45#8 else if c = some 43#8 then .ok [] else poke [] (c.getD 255#8) : Res (List Byte)) := by
    refine .ite (fun e => ?_) (fun h1 => .ite (fun e => ?_) (fun h2 => ?_))
    · subst e
      rw [poke_spec (by simp)]
      refine .ok ⟨by simp, ?_⟩
      have := (hs.suffix hsub).run
      simp; omega
    · subst e
      refine .ok ⟨by simp, ?_⟩
      have := (hs.suffix hsub).run
      simp; omega
    · rw [poke_spec (by simp)]
      refine .ok ⟨by simp, ?_⟩
      rw [if_neg (by simp [h1, h2])]
      simp; omega
  have hinp : (if c = some 45#8 ∨ c = some 43#8 then inp else ungetc c inp) <:+ ungetc c inp := by
    split
    · exact hsub
    · exact List.suffix_rfl
  have hs' := hs.suffix hinp
  unfold readNum
  refine bind_ne_ub hstart ?_ fun st hst => ?_
  · refine ite_ne_ub (fun _ => ?_) (fun _ => ite_ne_ub (fun _ => nofun) (fun _ => ?_))
    · rw [poke_spec (by simp)]; nofun
    · rw [poke_spec (by simp)]; nofun
  · obtain ⟨g1, g2⟩ := digLoop_safe base p val hbase hp _ st 0 0 hs'.ascii hst.2 (by have := hs'.run.2; omega) (by simp)
    refine bind_ne_ub g2 g1 fun q hq => ?_
    have hasc : ∀ b ∈ ungetc q.2.2.1 q.2.2.2, b.msb = false := fun b hb => hs'.ascii b (hq.2.subset hb)
    refine bind_ne_ub (Holds.any _) (ctype_ub _ _ fun b hb => hasc b (by rw [hb]; simp [ungetc])) fun d _ => ite_ne_ub (fun _ => nofun) (fun _ => ?_)
    exact symLoop_ub _ _ _ hasc (fun _ => by omega) (fun _ => hq.1)

theorem StrLen.append {ps qs : List Byte} {k l : Nat} (h : StrLen ps k) (h' : StrLen qs l) : StrLen (ps ++ qs) (k + l) := by
  induction h with
  | nil => simpa using h'
  | @plain _ _ k h1 h2 _ ih =>
    have := StrLen.plain h1 h2 ih
    rwa [show k + l + 1 = k + 1 + l by omega] at this
  | @esc b _ k _ ih =>
    have := StrLen.esc (b := b) ih
    rwa [show k + l + 1 = k + 1 + l by omega] at this

theorem escape_ub (c : Ci) : escape c ≠ .ub := by unfold escape; split <;> nofun

theorem strLoop_ub {all : List Byte} (hs : Safe all) : ∀ (m : Nat) (inp buf pre : List Byte), inp.length ≤ m → buf.length ≤ 4096 → StrLen pre buf.length → 34#8 :: (pre ++ inp) <:+: all →
    strLoop buf inp ≠ .ub
  | _, [], buf, _, _, _, _, _ => by rw [strLoop]; nofun
  | 0, x :: r, _, _, h, _, _, _ => by simp at h
  | m + 1, x :: r, buf, pre, hm, hbl, hp, hi => by
    simp only [List.length_cons] at hm
    have hx : x.msb = false := hs.ascii x (hi.subset (by simp))
    have h3 := msb_ne x hx
    have hlen : ∀ b, Holds (fun r => r.length = buf.length + 1 ∧ buf.length < 4096) (push buf b) := fun b => push_len buf b
    by_cases h1 : x = 34#8
    · subst h1; rw [strLoop_quote]
      refine ite_ne_ub (fun _ => nofun) (fun h => ?_)
      have hlen : buf.length = 4096 := by unfold maxLen at h; omega
      rw [hlen] at hp
      exact absurd hp (hs.str pre (List.IsInfix.trans ⟨[], r, by simp⟩ hi))
    · by_cases h2 : x = 92#8
      · subst h2
        cases r with
        | nil =>
          rw [strLoop.eq_def]
          simp only
          rw [if_neg (by decide)]
          simp only [if_true]
          exact bind_ne_ub (Holds.any _) (notEof_ub _) fun _ _ => nofun
        | cons y r' =>
          simp only [List.length_cons] at hm
          rw [strLoop_escape]
          refine bind_ne_ub (Holds.any _) (escape_ub _) fun b _ => bind_ne_ub (hlen b) (push_ub _ _) fun buf' hb => ?_
          refine strLoop_ub hs m r' buf' (pre ++ [92#8, y]) (by omega) (by omega) ?_ (by simpa using hi)
          rw [hb.1]; exact hp.append (StrLen.esc StrLen.nil)
      · rw [strLoop_plain h1 h2 h3]
        refine bind_ne_ub (hlen x) (push_ub _ _) fun buf' hb => ?_
        refine strLoop_ub hs m r buf' (pre ++ [x]) (by omega) (by omega) ?_ (by simpa using hi)
        rw [hb.1]; exact hp.append (StrLen.plain h1 h2 StrLen.nil)

theorem blockLoop_ub : ∀ (m : Nat) (l : Nat) (inp : List Byte), inp.length ≤ m → blockLoop l inp ≠ .ub
  | _, 0, inp, _ => by rw [blockLoop]; nofun
  | _, l + 1, [], _ => by rw [blockLoop]; nofun
  | 0, l + 1, x :: r, h => by simp at h
  | m + 1, l + 1, x :: r, hm => by
    simp only [List.length_cons] at hm
    rw [blockLoop.eq_def]
    simp only
    refine bind_ne_ub (Holds.any _) (notEof_ub _) fun _ _ => ite_ne_ub (fun _ => ?_) (fun _ => ite_ne_ub (fun _ => ?_) (fun _ => ?_))
    · cases r with
      | nil => nofun
      | cons y r' =>
        simp only [List.length_cons] at hm
        exact bind_ne_ub (Holds.any _) (notEof_ub _) fun _ _ => blockLoop_ub m _ r' (by omega)
    · cases r with
      | nil => nofun
      | cons y r' =>
        simp only [List.length_cons] at hm
        exact bind_ne_ub (Holds.any _) (notEof_ub _) fun _ _ => blockLoop_ub m _ r' (by omega)
    · exact blockLoop_ub m _ r (by omega)

theorem readAtom_ub {x : Byte} {r : List Byte} (hs : Safe (x :: r)) : readAtom (chr (some x)) r ≠ .ub := by
  have hx : x.msb = false := hs.ascii x (by simp)
  rw [chr_msb hx]
  unfold readAtom
  rw [ctype_ok hx, Res.ok_bind]
  refine ite_ne_ub (fun _ => readNum_ub 10 _ _ (by omega) dec_safe hs) (fun _ => ite_ne_ub (fun e => ?_) (fun _ => ?_))
  · have e : x = 34#8 := by simpa using e
    subst e
    exact strLoop_ub hs _ r [] [] (Nat.le_refl _) (by simp) StrLen.nil List.infix_rfl
  · rw [delimC_some hx, Res.ok_bind]
    refine ite_ne_ub (fun _ => ?_) (fun _ => ite_ne_ub (fun _ => nofun) (fun _ => nofun))
    exact symLoop_ub r [] (some x) hs.ascii nofun (fun _ => by have := hs.run.1; simp only [ungetc, List.length_nil]; omega)

theorem readEnd_ub (o : Byte) (d : Dat) (inp : List Byte) : readEnd o d inp ≠ .ub := by
  cases inp with
  | nil => nofun
  | cons x r =>
    rw [readEnd]
    exact bind_ne_ub (Holds.any _) (notEof_ub _) fun _ _ => ite_ne_ub (fun _ => ite_ne_ub (fun _ => nofun) (fun _ => nofun)) (fun _ => nofun)

/-- on safe input the reader has no undefined behaviour -/
theorem read_ne_ub : ∀ n : Nat, (∀ inp, Safe inp → readObj n inp ≠ .ub) ∧ (∀ inp, Safe (35#8 :: inp) → readHash n inp ≠ .ub) ∧
    (∀ o inp, Safe inp → readPair n o inp ≠ .ub) ∧ (∀ o d inp, Safe inp → readRest n o d inp ≠ .ub) ∧ (∀ inp acc, Safe inp → readVec n inp acc ≠ .ub)
  | 0 => ⟨fun _ _ => by rw [readObj]; nofun, fun _ _ => by rw [readHash]; nofun, fun _ _ _ => by rw [readPair]; nofun, fun _ _ _ _ => by rw [readRest]; nofun,
      fun _ _ _ => by rw [readVec]; nofun⟩
  | n + 1 => by
    obtain ⟨hO, hH, hP, hR, hV⟩ := read_ne_ub n
    obtain ⟨sO, _⟩ := read_suffix n
    have sO' : ∀ inp, Holds (fun q : Dat × List Byte => q.2 <:+ inp) (readObj n inp) := fun inp => (sO inp).mono fun q h => h.trans (tail_skip_suffix _)
    refine ⟨fun inp hv => ?_, fun inp hv => ?_, fun o inp hv => ?_, fun o d inp hv => ?_, fun inp acc hv => ?_⟩
    · rw [readObj]
      have hs := hv.suffix (skip_suffix false inp)
      split
      · nofun
      · rename_i x r h
        rw [h] at hs
        have hr := hs.suffix (List.suffix_cons x r)
        refine ite_ne_ub (fun e => ?_) (fun _ => ite_ne_ub (fun _ => hP _ _ hr) (fun _ => ite_ne_ub (fun _ => ?_) (fun _ => readAtom_ub hs)))
        · subst e; exact hH r hs
        · exact bind_ne_ub (Holds.any _) (hO r hr) fun _ _ => nofun
    · cases inp with
      | nil => rw [readHash]; nofun
      | cons x r =>
        have hr : Safe r := hv.suffix ((List.suffix_cons _ _).trans (List.suffix_cons _ _))
        rw [readHash]
        refine ite_ne_ub (fun _ => ?_) (fun _ => ite_ne_ub (fun _ => nofun) (fun _ => ite_ne_ub (fun _ => nofun) (fun _ => ite_ne_ub (fun _ => ?_) (fun _ =>
          ite_ne_ub (fun _ => ?_) (fun _ => ite_ne_ub (fun e => hV r [] hr) (fun _ => ite_ne_ub (fun _ => ?_) (fun _ => ite_ne_ub (fun _ => ?_) (fun _ => ite_ne_ub (fun _ => ?_) (fun _ =>
          ite_ne_ub (fun _ => ?_) (fun _ => nofun))))))))))
        · exact symLoop_ub _ [] (some 35#8) hv.ascii nofun (fun _ => by have := hv.run.1; simp only [ungetc, List.length_nil]; omega)
        · exact bind_ne_ub (Holds.any _) (readChar_ub hr.ascii) fun _ _ => nofun
        · exact bind_ne_ub (Holds.any _) (hO r hr) fun _ _ => nofun
        · exact bind_ne_ub (Holds.any _) (hO r hr) fun _ _ => nofun
        · refine readNum_ub 16 _ _ (by omega) hex_safe ?_
          cases r with
          | nil => exact hr
          | cons y r' => exact hr.suffix (ungetc_chr y r')
        · rw [readObj_skip]
          exact bind_ne_ub (Holds.any _) (notEof_ub _) fun _ _ => bind_ne_ub (sO' r) (hO r hr) fun q hq => hO q.2 (hr.suffix hq)
        · exact bind_ne_ub (blockLoop_suffix _ 1 r (Nat.le_refl _)) (blockLoop_ub _ 1 r (Nat.le_refl _)) fun r' hr' => hO r' (hr.suffix hr')
    · rw [readPair]
      split
      · nofun
      · rename_i x r h
        refine bind_ne_ub (Holds.any _) (notEof_ub _) fun _ _ => ite_ne_ub (fun _ => ite_ne_ub (fun _ => nofun) (fun _ => nofun)) (fun _ => ?_)
        rw [← h, readObj_skip]
        exact bind_ne_ub (sO' inp) (hO inp hv) fun q hq => hR o q.1 _ (hv.suffix ((skip_suffix _ _).trans hq))
    · cases inp with
      | nil => rw [readRest]; nofun
      | cons y r =>
        rw [readRest]
        refine bind_ne_ub (Holds.any _) (notEof_ub _) fun _ _ => ite_ne_ub (fun _ => ?_) (fun _ => ?_)
        · have hr := hv.suffix (List.suffix_cons y r)
          refine bind_ne_ub (Holds.any _) (expectDelim_ub hr.ascii) fun _ _ => ?_
          exact bind_ne_ub (Holds.any _) (hO r hr) fun _ _ => readEnd_ub _ _ _
        · exact bind_ne_ub (Holds.any _) (hP o _ hv) fun _ _ => nofun
    · rw [readVec]
      refine ite_ne_ub (fun _ => ?_) (fun _ => ?_)
      · exact bind_ne_ub (Holds.any _) (readChar_ub (hv.suffix (skip_suffix false inp)).ascii) fun _ _ => nofun
      · rw [readObj_skip]
        exact bind_ne_ub (sO' inp) (hO inp hv) fun q hq => hV q.2 _ (hv.suffix hq)

/-! ### over-long and mixed tokens -/

theorem symLoop_long : ∀ (s buf : List Byte) (b : Byte) (inp : List Byte), (∀ x ∈ b :: s, delimB x = false ∧ x.msb = false) → DelimStart inp →
    buf.length + s.length + 1 = 4096 → symLoop buf (some b) (s ++ inp) = .ub := by
  intro s
  induction s with
  | nil =>
    intro buf b inp hb hd hl
    have h1 := hb b (by simp)
    simp only [List.length_nil] at hl
    have hp : push buf b = .ok (buf ++ [b]) := by rw [push, if_neg (by unfold maxLen; omega)]
    cases inp with
    | nil =>
      rw [List.append_nil, symLoop, delimC_some h1.2, h1.1, Res.ok_bind]
      simp only
      rw [hp, Res.ok_bind, symEnd, if_neg (by simp [maxLen]; omega)]
    | cons x r =>
      have hx := delim_msb x hd
      rw [List.nil_append, symLoop, delimC_some h1.2, h1.1, Res.ok_bind]
      simp only
      rw [hp, Res.ok_bind, chr_ne (msb_ne x hx)]
      have hd' : delimB x = true := hd
      cases r <;> rw [symLoop, delimC_some hx, hd', Res.ok_bind] <;> simp only <;>
        rw [symEnd, if_neg (by simp [maxLen]; omega)]
  | cons y s ih =>
    intro buf b inp hb hd hl
    have h1 := hb b (by simp)
    have hy := hb y (by simp)
    simp only [List.length_cons] at hl
    rw [List.cons_append, symLoop, delimC_some h1.2, h1.1, Res.ok_bind]
    simp only
    rw [push, if_neg (by unfold maxLen; omega), Res.ok_bind, chr_ne (msb_ne y hy.2),
      ih (buf ++ [b]) y inp (fun x hx => hb x (by simp at hx ⊢; tauto)) hd (by simp; omega)]

theorem strLoop_long {ps bs : List Byte} (h : Pieces ps bs) : ∀ (buf inp : List Byte), buf.length + bs.length = 4096 →
    strLoop buf (ps ++ (34#8 :: inp)) = .ub := by
  induction h with
  | nil =>
    intro buf inp hl
    rw [List.nil_append, strLoop_quote, if_neg (by simp at hl; unfold maxLen; omega)]
  | cons hp _ ih =>
    intro buf inp hl
    simp only [List.length_cons] at hl
    have hpush : ∀ b, push buf b = .ok (buf ++ [b]) := fun b => by rw [push, if_neg (by unfold maxLen; omega)]
    have key := fun b => (by rw [hpush, Res.ok_bind]; exact ih (buf ++ [b]) inp (by simp; omega) : (push buf b >>= fun buf' => strLoop buf' (_ ++ (34#8 :: inp))) = .ub)
    rw [List.append_assoc]
    cases hp with
    | plain b h1 h2 h3 h4 => rw [List.singleton_append, strLoop_plain h1 h2 h3]; exact key _
    | nl => rw [List.cons_append, List.singleton_append, strLoop_escape]; exact key 10#8
    | tab => rw [List.cons_append, List.singleton_append, strLoop_escape]; exact key 9#8
    | bs => rw [List.cons_append, List.singleton_append, strLoop_escape]; exact key 92#8
    | sq => rw [List.cons_append, List.singleton_append, strLoop_escape]; exact key 39#8
    | dq => rw [List.cons_append, List.singleton_append, strLoop_escape]; exact key 34#8

/-- an escape the reader does not know -/
theorem strLoop_bad {ps bs : List Byte} (h : Pieces ps bs) (y : Byte) (hy : escape (chr (some y)) = .err) : ∀ (buf inp : List Byte),
    strLoop buf (ps ++ (92#8 :: y :: inp)) = .err := by
  induction h with
  | nil => intro buf inp; rw [List.nil_append, strLoop_escape, hy]; rfl
  | @cons p ps b bs hp _ ih =>
    intro buf inp
    have key : (push buf b >>= fun buf' => strLoop buf' (ps ++ (92#8 :: y :: inp))) = .err := by
      unfold push
      split
      · rfl
      · exact ih _ _
    rw [List.append_assoc]
    cases hp with
    | plain b h1 h2 h3 h4 => rw [List.singleton_append, strLoop_plain h1 h2 h3]; exact key
    | nl => rw [List.cons_append, List.singleton_append, strLoop_escape]; exact key
    | tab => rw [List.cons_append, List.singleton_append, strLoop_escape]; exact key
    | bs => rw [List.cons_append, List.singleton_append, strLoop_escape]; exact key
    | sq => rw [List.cons_append, List.singleton_append, strLoop_escape]; exact key
    | dq => rw [List.cons_append, List.singleton_append, strLoop_escape]; exact key

theorem digLoop_over (base : Nat) (p : Byte → Bool) (val val' : Byte → Nat)
    (hp : ∀ b, p b = true → b.msb = false ∧ val b = val' b) :
    ∀ (ds buf : List Byte) (num : Nat) (inp : List Byte), (∀ b ∈ ds, p b = true) → num < 2 ^ 63 →
      2 ^ 63 ≤ ds.foldl (fun acc b => acc * base + val' b) num → digLoop base p val buf num (ds ++ inp) = .ub := by
  intro ds
  induction ds with
  | nil => intro buf num inp _ h1 h2; simp only [List.foldl_nil] at h2; omega
  | cons d ds ih =>
    intro buf num inp hds h1 h2
    have hd := hp d (hds d (by simp))
    rw [List.foldl_cons] at h2
    rw [List.cons_append, digLoop, chr_ne (msb_ne d hd.1), ctype_ok hd.1, hds d (by simp), Res.ok_bind, if_pos rfl]
    unfold poke
    split
    · rfl
    · rw [Res.ok_bind, hd.2]
      by_cases hm : maxFix < num * base + val' d
      · rw [if_pos hm]
      · rw [if_neg hm]
        exact ih _ _ inp (fun b hb => hds b (by simp [hb])) (by unfold maxFix at hm; omega) h2

/-- digits followed by something that is neither a digit nor a delimiter -/
theorem digLoop_mixed : ∀ (ds buf : List Byte) (num : Nat) (b : Byte) (inp : List Byte), (∀ b ∈ ds, digitB b = true) → digitB b = false → b.msb = false →
    buf.length + ds.length ≤ 4096 → ds.foldl (fun acc b => acc * 10 + decVal b) num < 2 ^ 63 →
    digLoop 10 digitB (fun b => b.toNat - 48) buf num (ds ++ b :: inp) = .ok (buf ++ ds, ds.foldl (fun acc b => acc * 10 + decVal b) num, some b, inp) := by
  intro ds
  induction ds with
  | nil =>
    intro buf num b inp _ h1 h2 _ _
    rw [List.nil_append, digLoop, chr_msb h2, ctype_ok h2, h1, List.append_nil]; rfl
  | cons d ds ih =>
    intro buf num b inp hds h1 h2 hl hv
    have hd := digit_facts d (hds d (by simp))
    rw [List.foldl_cons] at hv
    simp only [List.length_cons] at hl
    have hle := foldl_ge 10 decVal (by omega) ds (num * 10 + decVal d)
    rw [List.cons_append, digLoop, chr_msb hd.1, ctype_ok hd.1, hds d (by simp), Res.ok_bind, if_pos rfl, poke, if_neg (by unfold maxLen; omega), Res.ok_bind]
    have hle' : ¬ maxFix < num * 10 + (d.toNat - 48) := by
      unfold decVal at hle hv; unfold maxFix; omega
    rw [if_neg hle']
    have := ih (buf ++ [d]) (num * 10 + decVal d) b inp (fun b hb => hds b (by simp [hb])) h1 h2 (by simp; omega) hv
    unfold decVal at this ⊢
    rw [this, List.foldl_cons]
    simp

theorem readNum_mixed {ds : List Byte} (hds : ∀ b ∈ ds, digitB b = true) (hv : numeral 10 decVal ds < 2 ^ 63) {b : Byte} {s : List Byte}
    (hb : digitB b = false) (hs : ∀ x ∈ b :: s, delimB x = false ∧ x.msb = false) (hl : ds.length + s.length + 2 < 4096) {inp : List Byte} (hd : DelimStart inp) :
    readNum 10 digitB (fun b => b.toNat - 48) (some 45#8) (ds ++ b :: (s ++ inp)) = .ok (.sym (cstr (45#8 :: (ds ++ b :: s))), inp) ∧
    readNum 10 digitB (fun b => b.toNat - 48) (some 43#8) (ds ++ b :: (s ++ inp)) = .ok (.sym (cstr (ds ++ b :: s)), inp) ∧
    ∀ d r, ds = d :: r → readNum 10 digitB (fun b => b.toNat - 48) (some d) (r ++ b :: (s ++ inp)) = .ok (.sym (cstr (d :: (ds ++ b :: s))), inp) := by
  have hbm := hs b (by simp)
  have key := fun (buf : List Byte) (h : buf.length ≤ 1) => digLoop_mixed ds buf 0 b (s ++ inp) hds hb hbm.2 (by omega) hv
  have sym := fun (buf : List Byte) (h : buf.length ≤ 1) => symLoop_ok s (buf ++ ds) b inp hs hd (by simp; omega)
  refine ⟨?_, ?_, ?_⟩
  · rw [readNum, if_pos rfl, poke, if_neg (by simp [maxLen]), Res.ok_bind]
    simp only [true_or, if_true, List.nil_append]
    rw [key [45#8] (by simp)]
    simp only [Res.ok_bind]
    rw [delimC_some hbm.2, hbm.1]
    simp only [Res.ok_bind, Bool.false_eq_true, if_false]
    rw [sym [45#8] (by simp)]; simp
  · rw [readNum, if_neg (by decide), if_pos rfl, Res.ok_bind]
    simp only [or_true, if_true]
    rw [key [] (by simp)]
    simp only [Res.ok_bind]
    rw [delimC_some hbm.2, hbm.1]
    simp only [Res.ok_bind, Bool.false_eq_true, if_false]
    rw [sym [] (by simp)]; simp
  · rintro d r rfl
    have hd' := digit_facts d (hds d (by simp))
    have h45 : ¬ (some d : Ci) = some 45#8 := by simpa using hd'.2.2.2.2.2.2.2.2.2.1
    have h43 : ¬ (some d : Ci) = some 43#8 := by simpa using hd'.2.2.2.2.2.2.2.2.2.2.1
    rw [readNum, if_neg h45, if_neg h43, poke, if_neg (by simp [maxLen]), Res.ok_bind]
    simp only [h45, h43, or_self, if_false, Option.getD_some, List.nil_append]
    have := key [d] (by simp)
    rw [List.cons_append] at this
    rw [show ungetc (some d) (r ++ b :: (s ++ inp)) = d :: (r ++ b :: (s ++ inp)) from rfl, this]
    simp only [Res.ok_bind]
    rw [delimC_some hbm.2, hbm.1]
    simp only [Res.ok_bind, Bool.false_eq_true, if_false]
    rw [sym [d] (by simp)]; simp

/-- a token starting with a digit, or with a sign and a digit, is read by `readNum` -/
theorem readObj_num (n : Nat) {x : Byte} {r : List Byte} (h : digitB x = true ∨ ((x = 45#8 ∨ x = 43#8) ∧ ∃ d r', r = d :: r' ∧ digitB d = true)) :
    readObj (n + 1) (x :: r) = readNum 10 digitB (fun b => b.toNat - 48) (some x) r := by
  rcases h with h | ⟨h, d, r', rfl, hd⟩
  · have hf := digit_facts x h
    rw [readObj_atom hf.2.2.1 hf.2.2.2.1 hf.2.2.2.2.1 hf.2.2.2.2.2.1 hf.2.2.2.2.2.2.1 (msb_ne x hf.1), readAtom, ctype_ok hf.1, h, Res.ok_bind, if_pos (by simp)]
  · have hp : peekIs digitB (d :: r') = true := hd
    rcases h with rfl | rfl
    · rw [readObj_atom (by decide) (by decide) (by decide) (by decide) (by decide) (by decide), readAtom, ctype_ok (by decide), Res.ok_bind, if_pos (by rw [hp]; decide)]
    · rw [readObj_atom (by decide) (by decide) (by decide) (by decide) (by decide) (by decide), readAtom, ctype_ok (by decide), Res.ok_bind, if_pos (by rw [hp]; decide)]

/-- a vector that the input ends in is read forever -/
theorem readVec_eof (inp : List Byte) (h : skip false inp = []) : ∀ (n : Nat) (acc : List Dat), readVec n inp acc = .oof := by
  intro n
  induction n generalizing inp with
  | zero => intro acc; rw [readVec]
  | succ n ih =>
    intro acc
    rw [readVec, h, if_neg (by simp [peek, getc])]
    cases n with
    | zero => rw [readObj]; rfl
    | succ n =>
      have e : readObj (n + 1) [] = .ok (.nul, []) := rfl
      rw [e, Res.ok_bind]
      exact ih [] rfl _

end Minim.Rd
