import Verif.Fmt
import Verif.PortProps

set_option autoImplicit false

/-!
# Formatting directives (C66)
-/

namespace Minim.Fmt

open Minim.Str (Heap Val Text)
open Minim.Port (World PV OutS)
open Minim.Rd (Dat wr)

/-! ### specification -/

/-- the parts of a format string -/
inductive Piece where
  | lit (b : Byte)
  | disp
  | wrt
  | nl
  | tilde
deriving DecidableEq, Repr

/-- the syntax of format strings: a tilde begins a directive -/
inductive Parse : List Byte → List Piece → Prop where
  | nil : Parse [] []
  | lit {b : Byte} {t : List Byte} {ps : List Piece} (hb : b ≠ 126#8) (h : Parse t ps) : Parse (b :: t) (.lit b :: ps)
  | disp {b : Byte} {t : List Byte} {ps : List Piece} (hb : b = 97#8 ∨ b = 65#8) (h : Parse t ps) : Parse (126#8 :: b :: t) (.disp :: ps)
  | wrt {b : Byte} {t : List Byte} {ps : List Piece} (hb : b = 115#8 ∨ b = 83#8) (h : Parse t ps) : Parse (126#8 :: b :: t) (.wrt :: ps)
  | nl {t : List Byte} {ps : List Piece} (h : Parse t ps) : Parse (126#8 :: 37#8 :: t) (.nl :: ps)
  | tilde {t : List Byte} {ps : List Piece} (h : Parse t ps) : Parse (126#8 :: 126#8 :: t) (.tilde :: ps)

/-- the text it stands for, if the number of arguments is right -/
def render : List Piece → List Dat → Option (List Byte)
  | [], [] => some []
  | [], _ :: _ => none
  | .lit b :: ps, xs => (render ps xs).map (b :: ·)
  | .nl :: ps, xs => (render ps xs).map (10#8 :: ·)
  | .tilde :: ps, xs => (render ps xs).map (126#8 :: ·)
  | .disp :: ps, x :: xs => (render ps xs).map (wr true x ++ ·)
  | .wrt :: ps, x :: xs => (render ps xs).map (wr false x ++ ·)
  | .disp :: _, [] => none
  | .wrt :: _, [] => none

/-! ### lemmas -/

/-- the parts, computed -/
def parse : List Byte → Option (List Piece)
  | [] => some []
  | [b] => if b = 126#8 then none else some [.lit b]
  | b :: c :: t =>
    if b = 126#8 then
      if c = 97#8 ∨ c = 65#8 then (parse t).map (.disp :: ·)
      else if c = 115#8 ∨ c = 83#8 then (parse t).map (.wrt :: ·)
      else if c = 37#8 then (parse t).map (.nl :: ·)
      else if c = 126#8 then (parse t).map (.tilde :: ·)
      else none
    else (parse (c :: t)).map (.lit b :: ·)

theorem parse_lit {b : Byte} (hb : b ≠ 126#8) (t : List Byte) : parse (b :: t) = (parse t).map (.lit b :: ·) := by
  cases t with
  | nil => simp [parse, hb]
  | cons c t => rw [parse, if_neg hb]

theorem parse_of {t : List Byte} {ps : List Piece} (h : Parse t ps) : parse t = some ps := by
  induction h with
  | nil => rfl
  | lit hb _ ih => rw [parse_lit hb, ih]; rfl
  | disp hb _ ih => rw [parse, if_pos rfl, if_pos hb, ih]; rfl
  | wrt hb _ ih =>
    rw [parse, if_pos rfl, if_neg, if_pos hb, ih]
    · rfl
    · rcases hb with rfl | rfl <;> decide
  | nl _ ih => rw [parse, if_pos rfl, if_neg (by decide), if_neg (by decide), if_pos rfl, ih]; rfl
  | tilde _ ih => rw [parse, if_pos rfl, if_neg (by decide), if_neg (by decide), if_neg (by decide), if_pos rfl, ih]; rfl

theorem of_parse : ∀ (n : Nat) {t : List Byte} {ps : List Piece}, t.length ≤ n → parse t = some ps → Parse t ps
  | n, [], ps, _, h => by cases h; exact .nil
  | 0, _ :: _, _, hl, _ => by simp at hl
  | n + 1, [b], ps, _, h => by
    rw [parse] at h
    by_cases hb : b = 126#8
    · rw [if_pos hb] at h; cases h
    · rw [if_neg hb] at h; cases h; exact .lit hb .nil
  | n + 1, b :: c :: t, ps, hl, h => by
    rw [parse] at h
    simp only [List.length_cons] at hl
    have key : ∀ {u : List Byte} {p : Piece}, u.length ≤ n → (parse u).map (p :: ·) = some ps → ∃ qs, ps = p :: qs ∧ Parse u qs := by
      intro u p hu e
      obtain ⟨qs, e1, rfl⟩ := Option.map_eq_some_iff.1 e
      exact ⟨qs, rfl, of_parse n hu e1⟩
    by_cases hb : b = 126#8
    · rw [if_pos hb] at h
      subst hb
      split at h
      · obtain ⟨qs, rfl, hq⟩ := key (by omega) h; exact .disp ‹_› hq
      · split at h
        · obtain ⟨qs, rfl, hq⟩ := key (by omega) h; exact .wrt ‹_› hq
        · split at h
          · obtain ⟨qs, rfl, hq⟩ := key (by omega) h; subst c; exact .nl hq
          · split at h
            · obtain ⟨qs, rfl, hq⟩ := key (by omega) h; subst c; exact .tilde hq
            · cases h
    · rw [if_neg hb] at h
      obtain ⟨qs, rfl, hq⟩ := key (u := c :: t) (by simp only [List.length_cons]; omega) h
      exact .lit hb hq

theorem parse_iff {t : List Byte} {ps : List Piece} : Parse t ps ↔ parse t = some ps := ⟨parse_of, of_parse _ (Nat.le_refl _)⟩

theorem charAt_eq {h : Heap} {fmt : Val} {pre t : List Byte} {b : Byte} (ht : Text h fmt (pre ++ b :: t)) (hl : (pre ++ b :: t).length < 2 ^ 63) :
    charAt h fmt pre.length = .ok b := by
  have e : (BitVec.ofNat 64 pre.length).toNat = pre.length := Str.toNat_ofNat64 (by simp at hl; omega)
  unfold charAt
  rw [Str.C35_ref ht hl, e, Str.get_at]
  rfl

theorem charAt_eq' {h : Heap} {fmt : Val} {pre t : List Byte} {b c : Byte} (ht : Text h fmt (pre ++ b :: c :: t)) (hl : (pre ++ b :: c :: t).length < 2 ^ 63) :
    charAt h fmt (pre.length + 1) = .ok c := by
  have := charAt_eq (h := h) (fmt := fmt) (pre := pre ++ [b]) (t := t) (b := c) (by simpa using ht) (by simpa using hl)
  simpa using this

/-- the number of arguments -/
def count : List Piece → Nat
  | [] => 0
  | .disp :: ps => count ps + 1
  | .wrt :: ps => count ps + 1
  | _ :: ps => count ps

theorem render_iff : ∀ (ps : List Piece) (xs : List Dat), (render ps xs).isSome = true ↔ count ps = xs.length
  | [], [] => by simp [render, count]
  | [], _ :: _ => by simp [render, count]
  | .lit b :: ps, xs => by simp [render, count, render_iff ps xs]
  | .nl :: ps, xs => by simp [render, count, render_iff ps xs]
  | .tilde :: ps, xs => by simp [render, count, render_iff ps xs]
  | .disp :: ps, x :: xs => by simp [render, count, render_iff ps xs]
  | .wrt :: ps, x :: xs => by simp [render, count, render_iff ps xs]
  | .disp :: ps, [] => by simp [render, count]
  | .wrt :: ps, [] => by simp [render, count]

theorem fmtArgs_spec (h : Heap) (fmt : Val) (len : Nat) : ∀ (k : Nat) (pre t : List Byte) (a : Nat), Text h fmt (pre ++ t) → (pre ++ t).length = len → len < 2 ^ 63 → t.length < k →
    fmtArgs h fmt len k pre.length a = match parse t with
      | some ps => if Piece.tilde ∈ ps then .err else .ok (a + count ps)
      | none => .err
  | 0, _, _, _, _, _, _, hk => by omega
  | k + 1, pre, [], a, _, hl, _, _ => by
    rw [fmtArgs, if_pos (by simp at hl; omega)]
    simp [parse, count]
  | k + 1, pre, [b], a, ht, hl, hm, hk => by
    have e1 := charAt_eq ht (by omega)
    rw [fmtArgs, if_neg (by simp at hl; omega), e1, Res.ok_bind, parse]
    by_cases hb : b = 126#8
    · rw [if_pos hb, if_pos (by simp at hl; omega), if_pos hb]
    · rw [if_neg hb, if_neg hb]
      have := fmtArgs_spec h fmt len k (pre ++ [b]) [] a (by simpa using ht) (by simpa using hl) hm (by simp at hk ⊢; omega)
      simp only [List.length_append, List.length_singleton] at this
      rw [this]
      simp [parse, count]
  | k + 1, pre, b :: c :: t, a, ht, hl, hm, hk => by
    have e1 := charAt_eq ht (by omega)
    have e2 := charAt_eq' ht (by omega)
    have hl' := hl
    simp only [List.length_append, List.length_cons] at hl' hk
    rw [fmtArgs, if_neg (by omega), e1, Res.ok_bind]
    by_cases hb : b = 126#8
    · subst hb
      rw [if_pos rfl, if_neg (by omega), e2, Res.ok_bind, parse, if_pos rfl]
      have ih := fun a => fmtArgs_spec h fmt len k (pre ++ [126#8, c]) t a (by simpa using ht) (by simpa using hl) hm (by omega)
      simp only [List.length_append, List.length_cons, List.length_nil] at ih
      split
      · rw [ih]
        cases parse t <;> simp [count]
        split <;> simp
        omega
      · split
        · rw [ih]
          cases parse t <;> simp [count]
          split <;> simp
          omega
        · split
          · rw [ih]
            cases parse t <;> simp [count]
          · split
            · cases parse t <;> simp
            · rfl
    · rw [if_neg hb, parse_lit hb]
      have ih := fmtArgs_spec h fmt len k (pre ++ [b]) (c :: t) a (by simpa using ht) (by simpa using hl) hm (by simp; omega)
      simp only [List.length_append, List.length_singleton] at ih
      rw [ih]
      cases parse (c :: t) <;> simp [count]

/-- an open output string port with these characters in it -/
def Holds (w : World) (n : Nat) (t : List Byte) : Prop := ∃ s, w.ports[n]? = some ⟨true, false, true, some s⟩ ∧ OutS s t

theorem putChar_spec {w : World} {n : Nat} {t : List Byte} (h : Holds w n t) (b : Byte) :
    ∃ s, Port.putChar w n b = .ok (Port.setStream w n s) ∧ Holds (Port.setStream w n s) n (t ++ [b]) ∧ (Port.setStream w n s).heap = w.heap := by
  obtain ⟨s, e, hs⟩ := h
  obtain ⟨s1, e1, h1⟩ := Port.putc_spec hs b
  refine ⟨s1, by simp [Port.putChar, Port.streamOf_eq e, e1], ?_⟩
  rw [Port.setStream_eq e]
  refine ⟨⟨s1, ?_, h1⟩, rfl⟩
  rw [List.getElem?_eq_some_iff] at e
  simp [e.1]

/-- the state after writing to port `n`: only its stream differs -/
def Wrote (w w' : World) (n : Nat) (t : List Byte) : Prop :=
  Holds w' n t ∧ w'.heap = w.heap ∧ w'.ports.length = w.ports.length ∧ ∀ i, i ≠ n → w'.ports[i]? = w.ports[i]?

theorem Wrote.trans {a b c : World} {n : Nat} {s t : List Byte} (x : Wrote a b n s) (y : Wrote b c n t) : Wrote a c n t :=
  ⟨y.1, y.2.1.trans x.2.1, y.2.2.1.trans x.2.2.1, fun i hi => (y.2.2.2 i hi).trans (x.2.2.2 i hi)⟩

theorem Wrote.refl {w : World} {n : Nat} {t : List Byte} (h : Holds w n t) : Wrote w w n t := ⟨h, rfl, rfl, fun _ _ => rfl⟩

theorem putChar_wrote {w : World} {n : Nat} {t : List Byte} (h : Holds w n t) (b : Byte) : ∃ w', Port.putChar w n b = .ok w' ∧ Wrote w w' n (t ++ [b]) := by
  obtain ⟨s, e, h1, h2⟩ := putChar_spec h b
  refine ⟨_, e, h1, h2, ?_, ?_⟩
  · obtain ⟨s0, e0, -⟩ := h
    rw [Port.setStream_eq e0]; simp
  · intro i hi
    obtain ⟨s0, e0, -⟩ := h
    rw [Port.setStream_eq e0]
    simp [List.getElem?_set, Ne.symm hi]

theorem emit_wrote (n : Nat) : ∀ (bs : List Byte) {w : World} {t : List Byte}, Holds w n t → ∃ w', emit n bs w = .ok w' ∧ Wrote w w' n (t ++ bs)
  | [], w, t, h => ⟨w, rfl, by simpa using Wrote.refl h⟩
  | b :: bs, w, t, h => by
    obtain ⟨w1, e1, h1⟩ := putChar_wrote h b
    obtain ⟨w2, e2, h2⟩ := emit_wrote n bs h1.1
    exact ⟨w2, by rw [emit, e1, Res.ok_bind, e2], by simpa using h1.trans h2⟩

theorem doFormat_spec (n : Nat) (fmt : Val) (len : Nat) {ps : List Piece} {t : List Byte} (hp : Parse t ps) : ∀ (k : Nat) (pre : List Byte) (w : World) (u : List Byte) (xs : List Dat) (out : List Byte),
    Text w.heap fmt (pre ++ t) → (pre ++ t).length = len → len < 2 ^ 63 → t.length < k → Holds w n u → render ps xs = some out →
    ∃ w', doFormat n fmt len k w pre.length xs = .ok w' ∧ Wrote w w' n (u ++ out) := by
  induction hp with
  | nil =>
    intro k pre w u xs out ht hl hm hk hh hr
    obtain ⟨k, rfl⟩ : ∃ j, k = j + 1 := ⟨k - 1, by omega⟩
    cases xs with
    | nil =>
      cases hr
      refine ⟨w, ?_, by simpa using Wrote.refl hh⟩
      rw [doFormat, if_pos (by simp at hl; omega)]
    | cons x xs => cases hr
  | @lit b t ps hb hp ih =>
    intro k pre w u xs out ht hl hm hk hh hr
    obtain ⟨k, rfl⟩ : ∃ j, k = j + 1 := ⟨k - 1, by omega⟩
    obtain ⟨out, hr', rfl⟩ := Option.map_eq_some_iff.1 hr
    have e1 := charAt_eq ht (by omega)
    simp only [List.length_cons] at hk
    obtain ⟨w1, e2, h2⟩ := putChar_wrote hh b
    obtain ⟨w2, e3, h3⟩ := ih k (pre ++ [b]) w1 (u ++ [b]) xs out (by rw [h2.2.1]; simpa using ht) (by simpa using hl) hm (by omega) h2.1 hr'
    refine ⟨w2, ?_, by simpa using h2.trans h3⟩
    simp only [List.length_append, List.length_singleton] at e3
    rw [doFormat, if_neg (by simp at hl; omega), e1, Res.ok_bind, if_neg hb, e2, Res.ok_bind, e3]
  | @disp b t ps hb hp ih =>
    intro k pre w u xs out ht hl hm hk hh hr
    obtain ⟨k, rfl⟩ : ∃ j, k = j + 1 := ⟨k - 1, by omega⟩
    have e1 := charAt_eq ht (by omega)
    have e1' := charAt_eq' ht (by omega)
    simp only [List.length_cons] at hk
    cases xs with
    | nil => cases hr
    | cons x xs =>
      obtain ⟨out, hr', rfl⟩ := Option.map_eq_some_iff.1 hr
      obtain ⟨w1, e2, h2⟩ := emit_wrote n (wr true x) hh
      obtain ⟨w2, e3, h3⟩ := ih k (pre ++ [126#8, b]) w1 (u ++ wr true x) xs out (by rw [h2.2.1]; simpa using ht) (by simpa using hl) hm (by omega) h2.1 hr'
      refine ⟨w2, ?_, by simpa using h2.trans h3⟩
      simp only [List.length_append, List.length_cons, List.length_nil] at e3
      rw [doFormat, if_neg (by simp at hl; omega), e1, Res.ok_bind, if_pos rfl, e1', Res.ok_bind, if_pos hb]
      simp only [uncons, Res.ok_bind, e2, e3]
  | @wrt b t ps hb hp ih =>
    intro k pre w u xs out ht hl hm hk hh hr
    obtain ⟨k, rfl⟩ : ∃ j, k = j + 1 := ⟨k - 1, by omega⟩
    have e1 := charAt_eq ht (by omega)
    have e1' := charAt_eq' ht (by omega)
    simp only [List.length_cons] at hk
    have hb' : ¬ (b = 97#8 ∨ b = 65#8) := by rcases hb with rfl | rfl <;> decide
    cases xs with
    | nil => cases hr
    | cons x xs =>
      obtain ⟨out, hr', rfl⟩ := Option.map_eq_some_iff.1 hr
      obtain ⟨w1, e2, h2⟩ := emit_wrote n (wr false x) hh
      obtain ⟨w2, e3, h3⟩ := ih k (pre ++ [126#8, b]) w1 (u ++ wr false x) xs out (by rw [h2.2.1]; simpa using ht) (by simpa using hl) hm (by omega) h2.1 hr'
      refine ⟨w2, ?_, by simpa using h2.trans h3⟩
      simp only [List.length_append, List.length_cons, List.length_nil] at e3
      rw [doFormat, if_neg (by simp at hl; omega), e1, Res.ok_bind, if_pos rfl, e1', Res.ok_bind, if_neg hb', if_pos hb]
      simp only [uncons, Res.ok_bind, e2, e3]
  | @nl t ps hp ih =>
    intro k pre w u xs out ht hl hm hk hh hr
    obtain ⟨k, rfl⟩ : ∃ j, k = j + 1 := ⟨k - 1, by omega⟩
    obtain ⟨out, hr', rfl⟩ := Option.map_eq_some_iff.1 hr
    have e1 := charAt_eq ht (by omega)
    have e1' := charAt_eq' ht (by omega)
    simp only [List.length_cons] at hk
    obtain ⟨w1, e2, h2⟩ := putChar_wrote hh 10#8
    obtain ⟨w2, e3, h3⟩ := ih k (pre ++ [126#8, 37#8]) w1 (u ++ [10#8]) xs out (by rw [h2.2.1]; simpa using ht) (by simpa using hl) hm (by omega) h2.1 hr'
    refine ⟨w2, ?_, by simpa using h2.trans h3⟩
    simp only [List.length_append, List.length_cons, List.length_nil] at e3
    rw [doFormat, if_neg (by simp at hl; omega), e1, Res.ok_bind, if_pos rfl, e1', Res.ok_bind, if_neg (by decide), if_neg (by decide), if_pos rfl, Port.newlineC, e2, Res.ok_bind, e3]
  | @tilde t ps hp ih =>
    intro k pre w u xs out ht hl hm hk hh hr
    obtain ⟨k, rfl⟩ : ∃ j, k = j + 1 := ⟨k - 1, by omega⟩
    obtain ⟨out, hr', rfl⟩ := Option.map_eq_some_iff.1 hr
    have e1 := charAt_eq ht (by omega)
    have e1' := charAt_eq' ht (by omega)
    simp only [List.length_cons] at hk
    obtain ⟨w1, e2, h2⟩ := putChar_wrote hh 126#8
    obtain ⟨w2, e3, h3⟩ := ih k (pre ++ [126#8, 126#8]) w1 (u ++ [126#8]) xs out (by rw [h2.2.1]; simpa using ht) (by simpa using hl) hm (by omega) h2.1 hr'
    refine ⟨w2, ?_, by simpa using h2.trans h3⟩
    simp only [List.length_append, List.length_cons, List.length_nil] at e3
    rw [doFormat, if_neg (by simp at hl; omega), e1, Res.ok_bind, if_pos rfl, e1', Res.ok_bind, if_neg (by decide), if_neg (by decide), if_neg (by decide), e2, Res.ok_bind, e3]

theorem checkFormat_spec {h : Heap} {fmt : Val} {t : List Byte} (ht : Text h fmt t) (hm : t.length < 2 ^ 63) (k : Nat) (hk : t.length < k) (xs : List Dat) :
    checkFormat k h fmt xs = match parse t with
      | some ps => if Piece.tilde ∈ ps ∨ count ps ≠ xs.length then .err else .ok ()
      | none => .err := by
  unfold checkFormat
  rw [Str.C35_length ht, Res.ok_bind]
  have := fmtArgs_spec h fmt t.length k [] t 0 ht rfl hm hk
  simp only [List.length_nil] at this
  rw [this]
  cases parse t with
  | none => rfl
  | some ps =>
    by_cases h1 : Piece.tilde ∈ ps
    · simp [h1]
    · by_cases h2 : count ps = xs.length
      · simp [h1, h2]
      · simp [h1, h2]

/-! ### the properties -/

/-- C66 for `fprintf` on a string port: the text of the directives is added to the port and nothing else changes; with the wrong number of arguments, or if the format string is ill-formed, an error is signalled
(before anything is written).  Missing for the full claim: the directive `~~` (`C66_negated`). -/
theorem C66_fprintf_partial {w : World} {fmt : Val} {t : List Byte} (ht : Text w.heap fmt t) (hm : t.length < 2 ^ 63) {n : Nat} {u : List Byte} (hh : Holds w n u) (xs : List Dat)
    (k : Nat) (hk : t.length < k) :
    (∀ ps, Parse t ps → Piece.tilde ∉ ps → match render ps xs with
      | some out => ∃ w', fprintf k w (.port n) fmt xs = .ok w' ∧ Wrote w w' n (u ++ out)
      | none => fprintf k w (.port n) fmt xs = .err) ∧
    ((¬ ∃ ps, Parse t ps) → fprintf k w (.port n) fmt xs = .err) := by
  have e0 : Port.isOutput w (.port n) = .ok true := by
    obtain ⟨s, e, -⟩ := hh
    simp [Port.isOutput, Port.portAt, e]
  have ec := checkFormat_spec ht hm k hk xs
  constructor
  · intro ps hp hn
    rw [parse_of hp] at ec
    have hi := render_iff ps xs
    cases hr : render ps xs with
    | some out =>
      rw [hr] at hi
      have hc : count ps = xs.length := hi.1 rfl
      simp only [hn, hc, ne_eq, not_true_eq_false, or_self, if_false] at ec
      obtain ⟨w', e1, h1⟩ := doFormat_spec n fmt t.length hp k [] w u xs out ht rfl hm hk hh hr
      refine ⟨w', ?_, h1⟩
      simp only [fprintf, e0, Res.ok_bind, if_pos, ec, Str.C35_length ht, Port.portNo]
      exact e1
    | none =>
      rw [hr] at hi
      have hc : count ps ≠ xs.length := fun h => by simpa using hi.2 h
      simp only [hc, ne_eq, not_false_eq_true, or_true, if_pos] at ec
      simp only [fprintf, e0, Res.ok_bind, if_pos, ec, Res.err_bind]
  · intro hp
    have : parse t = none := by
      cases h : parse t with
      | none => rfl
      | some ps => exact absurd ⟨ps, parse_iff.2 h⟩ hp
    rw [this] at ec
    simp only [fprintf, e0, Res.ok_bind, if_pos, ec, Res.err_bind]

/-- C66: `fprintf` refuses what is no output port (an input port, or no port at all), whatever the format string and the arguments are. -/
theorem C66_fprintf_refused {w : World} {p : PV} (h : ∀ n, p = .port n → ∃ q, w.ports[n]? = some q ∧ q.read = true) (k : Nat) (fmt : Val) (xs : List Dat) : fprintf k w p fmt xs = .err := by
  have e : Port.isOutput w p = .ok false := by
    cases p with
    | port n =>
      obtain ⟨q, h1, h2⟩ := h n rfl
      simp [Port.isOutput, Port.portAt, h1, h2]
    | _ => rfl
  simp [fprintf, e]

/-- an input port, and the void value -/
example (k : Nat) (fmt : Val) (xs : List Dat) : fprintf k ⟨[], [⟨true, true, false, none⟩]⟩ (.port 0) fmt xs = .err ∧ fprintf k ⟨[], []⟩ .void fmt xs = .err :=
  ⟨C66_fprintf_refused (fun n h => ⟨⟨true, true, false, none⟩, by cases h; rfl, rfl⟩) k fmt xs, C66_fprintf_refused (fun n h => by cases h) k fmt xs⟩

/-- C66 for `format`: the text of the directives (up to its first NUL).  Missing for the full claim: the directive `~~` (`C66_negated`), arguments printed with NUL characters. -/
theorem C66_partial {w : World} {fmt : Val} {t : List Byte} (ht : Text w.heap fmt t) (hm : t.length < 2 ^ 63) (xs : List Dat) (k : Nat) (hk : t.length < k) :
    (∀ ps, Parse t ps → Piece.tilde ∉ ps → match render ps xs with
      | some out => out.length < 2 ^ 62 → ∃ w' v, format k w fmt xs = .ok (w', .val v) ∧ Text w'.heap v (out.takeWhile (· ≠ 0#8)) ∧ (∃ o, w'.heap = w.heap ++ o) ∧
          ∀ i, i < w.ports.length → w'.ports[i]? = w.ports[i]?
      | none => format k w fmt xs = .err) ∧
    ((¬ ∃ ps, Parse t ps) → format k w fmt xs = .err) := by
  have ec := checkFormat_spec ht hm k hk xs
  constructor
  · intro ps hp hn
    rw [parse_of hp] at ec
    have hi := render_iff ps xs
    cases hr : render ps xs with
    | some out =>
      intro ho
      rw [hr] at hi
      have hc : count ps = xs.length := hi.1 rfl
      simp only [hn, hc, ne_eq, not_true_eq_false, or_self, if_false] at ec
      have hh : Holds (Port.openOutputString w).1 w.ports.length [] := ⟨Port.tmpfile, by simp [Port.openOutputString], rfl, ⟨[], rfl⟩, by simp [Port.tmpfile]⟩
      have ht' : Text (Port.openOutputString w).1.heap fmt ([] ++ t) := ht
      obtain ⟨w', e1, h1⟩ := doFormat_spec w.ports.length fmt t.length hp k [] (Port.openOutputString w).1 [] xs out ht' rfl hm hk hh hr
      obtain ⟨⟨s, es, hs⟩, eh, el, ep⟩ := h1
      rw [List.nil_append] at hs
      obtain ⟨s', e2, h2⟩ := Port.getOutputString_spec es hs ho
      have e3 : Port.pGetOutputString w' (.port w.ports.length) = Port.getOutputString w' w.ports.length := by
        simp [Port.pGetOutputString, Port.isOutput, Port.isString, Port.portAt, es, Port.portNo]
      have eh' : w'.heap = w.heap := eh
      have e7 : format k w fmt xs = .ok (⟨w'.heap ++ [.buf (out ++ [0#8])], w'.ports.set w.ports.length ⟨true, false, true, some s'⟩⟩, .val (.str w'.heap.length)) := by
        have e4 : Str.pStringLength (Port.openOutputString w).1.heap fmt = .ok t.length := Str.C35_length ht
        have e5 : Port.portNo (Port.openOutputString w).2 = .ok w.ports.length := rfl
        have e6 : Port.pGetOutputString w' (Port.openOutputString w).2 = _ := e3.trans e2
        simp only [List.length_nil] at e1
        simp only [format, ec, Res.ok_bind, e4, e5, e1, e6]
      refine ⟨_, _, e7, ?_, ?_, ?_⟩
      · exact Port.takeWhile_text out _ _ [] (by simp)
      · exact ⟨[.buf (out ++ [0#8])], by simp [eh']⟩
      · intro i hi'
        have : i ≠ w.ports.length := by omega
        rw [List.getElem?_set_ne (Ne.symm this), ep i this]
        simp [Port.openOutputString, List.getElem?_append_left hi']
    | none =>
      rw [hr] at hi
      have hc : count ps ≠ xs.length := fun h => by simpa using hi.2 h
      simp only [hc, ne_eq, not_false_eq_true, or_true, if_pos] at ec
      simp only [format, ec, Res.err_bind]
  · intro hp
    have : parse t = none := by
      cases h : parse t with
      | none => rfl
      | some ps => exact absurd ⟨ps, parse_iff.2 h⟩ hp
    rw [this] at ec
    simp only [format, ec, Res.err_bind]

/-- the format string `a~s~%~A` and two arguments -/
example : Text [.buf [97#8, 126#8, 115#8, 126#8, 37#8, 126#8, 65#8, 0#8]] (.str 0) [97#8, 126#8, 115#8, 126#8, 37#8, 126#8, 65#8] ∧
    Parse [97#8, 126#8, 115#8, 126#8, 37#8, 126#8, 65#8] [.lit 97#8, .wrt, .nl, .disp] ∧
    render [.lit 97#8, .wrt, .nl, .disp] [.str [120#8], .cons (.str [120#8]) (.sym [121#8])] =
      some [97#8, 34#8, 120#8, 34#8, 10#8, 40#8, 120#8, 32#8, 46#8, 32#8, 121#8, 41#8] :=
  ⟨⟨0, [], rfl, rfl, by decide⟩, parse_iff.2 rfl, by simp [render, wr, Rd.wrTail, Rd.wrStrChar]⟩

/-- an ill-formed format string -/
example : ¬ ∃ ps, Parse [97#8, 126#8] ps := by
  rintro ⟨ps, h⟩
  have := parse_of h
  cases this

/-- C66 violated: a format string with the directive `~~` is always refused, although it stands for a text -/
theorem C66_negated {w : World} {fmt : Val} {t : List Byte} (ht : Text w.heap fmt t) (hm : t.length < 2 ^ 63) (xs : List Dat) (k : Nat) (hk : t.length < k) (ps : List Piece)
    (hp : Parse t ps) (hn : Piece.tilde ∈ ps) : format k w fmt xs = .err := by
  have ec := checkFormat_spec ht hm k hk xs
  rw [parse_of hp] at ec
  simp only [hn, true_or, if_true] at ec
  simp only [format, ec, Res.err_bind]

/-- the format string `~~` -/
example : Text [.buf [126#8, 126#8, 0#8]] (.str 0) [126#8, 126#8] ∧ Parse [126#8, 126#8] [.tilde] ∧ render [.tilde] [] = some [126#8] :=
  ⟨⟨0, [], rfl, rfl, by decide⟩, .tilde .nil, rfl⟩

end Minim.Fmt
