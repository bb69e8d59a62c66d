import Verif.Port
import Verif.StrProps
import Mathlib.Data.List.Forall2

set_option autoImplicit false

/-!
# String ports: what is written is what is read back (C67, C84, C85)
-/

namespace Minim.Port

open Minim.Str (Heap Val Text)

/-! ### specification

An output port holds the bytes written since it was last read out; an input port the bytes not yet read.  Strings are their texts. -/

/-- values as a user sees them -/
inductive AV where
  | num (w : Word)
  | char (b : Byte)
  | text (t : List Byte)
  | port (n : Nat)
  | eof
  | void
  | bool (b : Bool)
deriving DecidableEq, Repr

/-- ports as a user sees them -/
inductive AP where
  | out (pending : List Byte)
  | inp (rest : List Byte)
  | closed (input : Bool)
deriving DecidableEq, Repr

/-- the argument of an operation -/
def arg (rs : List AV) (i : Nat) : Res AV :=
  match rs[i]? with
  | some v => .ok v
  | none => .err

/-- add bytes to an output port; everything else is refused -/
def append (ps : List AP) : AV → List Byte → Res (List AP × AV)
  | .port n, bs => match ps[n]? with
    | some (.out t) => .ok (ps.set n (.out (t ++ bs)), .void)
    | _ => .err
  | _, _ => .err

/-- what is an input port -/
def inputP (ps : List AP) : AV → Bool
  | .port n => match ps[n]? with
    | some (.inp _) => true
    | some (.closed i) => i
    | _ => false
  | _ => false

/-- what is an output port -/
def outputP (ps : List AP) : AV → Bool
  | .port n => match ps[n]? with
    | some (.out _) => true
    | some (.closed i) => !i
    | _ => false
  | _ => false

/-- one operation; on a closed port it is refused -/
def astep (ps : List AP) (rs : List AV) : Op → Res (List AP × AV)
  | .text t => .ok (ps, .text (t.takeWhile (· ≠ 0#8)))
  | .num w => .ok (ps, .num w)
  | .char b => .ok (ps, .char b)
  | .openOut => .ok (ps ++ [.out []], .port ps.length)
  | .openIn s => do
    match ← arg rs s with
    | .text t => .ok (ps ++ [.inp t], .port ps.length)
    | _ => .err
  | .putChar p c => do
    let p ← arg rs p
    match ← arg rs c with
    | .char b => append ps p [b]
    | _ => .err
  | .putString p s => do
    let p ← arg rs p
    match ← arg rs s with
    | .text t => append ps p t
    | _ => .err
  | .putFrom p s i => do
    let p ← arg rs p
    let s ← arg rs s
    match s, ← arg rs i with
    | .text t, .num i => if 0 ≤ i.toInt ∧ i.toInt ≤ t.length then append ps p (t.drop i.toNat) else .err
    | _, _ => .err
  | .putRange p s i k => do
    let p ← arg rs p
    let s ← arg rs s
    let i ← arg rs i
    match s, i, ← arg rs k with
    | .text t, .num i, .num k =>
      if 0 ≤ i.toInt ∧ 0 ≤ k.toInt ∧ i.toInt + k.toInt ≤ t.length then append ps p ((t.drop i.toNat).take k.toNat) else .err
    | _, _, _ => .err
  | .newline p => do append ps (← arg rs p) [10#8]
  | .flush p => do append ps (← arg rs p) []
  | .getString p => do
    match ← arg rs p with
    | .port n => match ps[n]? with
      | some (.out t) => .ok (ps.set n (.out []), .text (t.takeWhile (· ≠ 0#8)))
      | _ => .err
    | _ => .err
  | .readChar p => do
    match ← arg rs p with
    | .port n => match ps[n]? with
      | some (.inp []) => .ok (ps, .eof)
      | some (.inp (b :: t)) => .ok (ps.set n (.inp t), .char b)
      | _ => .err
    | _ => .err
  | .peekChar p => do
    match ← arg rs p with
    | .port n => match ps[n]? with
      | some (.inp []) => .ok (ps, .eof)
      | some (.inp (b :: _)) => .ok (ps, .char b)
      | _ => .err
    | _ => .err
  | .charReady p => do
    match ← arg rs p with
    | .port n => match ps[n]? with
      | some (.inp t) => .ok (ps, .bool (!t.isEmpty))
      | _ => .err
    | _ => .err
  | .closeIn p => do
    match ← arg rs p with
    | .port n => match ps[n]? with
      | some (.inp _) => .ok (ps.set n (.closed true), .void)
      | _ => .err
    | _ => .err
  | .closeOut p => do
    match ← arg rs p with
    | .port n => match ps[n]? with
      | some (.out _) => .ok (ps.set n (.closed false), .void)
      | _ => .err
    | _ => .err
  | .isInput p => do .ok (ps, .bool (inputP ps (← arg rs p)))
  | .isOutput p => do .ok (ps, .bool (outputP ps (← arg rs p)))
  | .isString p => do
    match ← arg rs p with
    | .port n => .ok (ps, .bool (ps[n]?).isSome)
    | _ => .ok (ps, .bool false)

/-- a program -/
def arun (ps : List AP) (rs : List AV) : List Op → Res (List AP × List AV)
  | [] => .ok (ps, rs)
  | o :: os => do
    let (ps, v) ← astep ps rs o
    arun ps (rs ++ [v]) os

/-- the operation is not applied to a closed port -/
def NotClosed (ps : List AP) (rs : List AV) (p : Nat) : Prop := ∀ n i, rs[p]? = some (.port n) → ps[n]? ≠ some (.closed i)

/-- the operations for which the code behaves as specified: not on a closed port, no string of 2^62 bytes, no range whose end is not a fixnum -/
def Safe (ps : List AP) (rs : List AV) : Op → Prop
  | .text t => t.length < 2 ^ 62
  | .putChar p _ | .putString p _ | .putFrom p _ _ | .newline p | .flush p | .readChar p | .peekChar p | .charReady p | .closeIn p | .closeOut p => NotClosed ps rs p
  | .getString p => NotClosed ps rs p ∧ ∀ (n : Nat) (t : List Byte), rs[p]? = some (AV.port n) → ps[n]? = some (AP.out t) → t.length < 2 ^ 62
  | .putRange p s i k => NotClosed ps rs p ∧ ∀ (t : List Byte) (x y : Word), rs[s]? = some (.text t) → rs[i]? = some (.num x) → rs[k]? = some (.num y) →
      x.toInt ≤ t.length → x.toInt + y.toInt < 2 ^ 63
  | _ => True

/-- all operations of a program are safe when they are reached -/
def SafeRun (ps : List AP) (rs : List AV) : List Op → Prop
  | [] => True
  | o :: os => Safe ps rs o ∧ ∀ ps' v, astep ps rs o = .ok (ps', v) → SafeRun ps' (rs ++ [v]) os

/-- what a user sees of a value -/
def Shows (w : World) : PV → AV → Prop
  | .val (.num a), .num b => a = b
  | .val (.char a), .char b => a = b
  | .val (.str a), .text t => Text w.heap (.str a) t
  | .port n, .port m => n = m
  | .eof, .eof => True
  | .void, .void => True
  | .bool a, .bool b => a = b
  | _, _ => False

/-! ### the streams -/

/-- the stream of an output port -/
def OutS (s : Stream) (t : List Byte) : Prop := s.pos = t.length ∧ (∃ r, s.bytes = t ++ r) ∧ s.last ≠ .rd

/-- the stream of an input port -/
def InS (s : Stream) (t : List Byte) : Prop := (∃ d, s.bytes = d ++ t ∧ s.pos = d.length) ∧ s.last ≠ .wr

theorem putc_spec {s : Stream} {t : List Byte} (hs : OutS s t) (b : Byte) : ∃ s', putc s b = .ok s' ∧ OutS s' (t ++ [b]) := by
  obtain ⟨hp, ⟨r, hr⟩, hl⟩ := hs
  unfold putc
  rw [if_neg hl]
  by_cases h : s.pos < s.bytes.length
  · rw [if_pos h]
    refine ⟨_, rfl, by simp [hp], ?_, by simp⟩
    cases r with
    | nil => simp [hr, hp] at h
    | cons x r => exact ⟨r, by simp [hr, hp]⟩
  · rw [if_neg h]
    refine ⟨_, rfl, by simp [hp], ?_, by simp⟩
    have hr' : r = [] := by
      rw [hr, hp] at h
      simp at h
      exact h
    subst hr'
    exact ⟨[], by simp [hr, hp]⟩

theorem puts_spec : ∀ (bs : List Byte) {s : Stream} {t : List Byte}, OutS s t → ∃ s', puts s bs = .ok s' ∧ OutS s' (t ++ bs)
  | [], s, t, h => ⟨s, rfl, by simpa using h⟩
  | b :: bs, s, t, h => by
    obtain ⟨s1, e1, h1⟩ := putc_spec h b
    obtain ⟨s2, e2, h2⟩ := puts_spec bs h1
    exact ⟨s2, by simp [puts, e1, e2], by simpa using h2⟩

theorem puts_tmpfile (bs : List Byte) : ∃ s, puts tmpfile bs = .ok s ∧ s.bytes = bs := by
  have key : ∀ (bs : List Byte) (s : Stream), s.pos = s.bytes.length → s.last ≠ .rd → ∃ s', puts s bs = .ok s' ∧ s'.bytes = s.bytes ++ bs := by
    intro bs
    induction bs with
    | nil => intro s _ _; exact ⟨s, rfl, by simp⟩
    | cons b bs ih =>
      intro s hp hl
      have e : putc s b = .ok ⟨s.bytes ++ List.replicate (s.pos - s.bytes.length) 0#8 ++ [b], s.pos + 1, .wr⟩ := by
        unfold putc
        rw [if_neg hl, if_neg (by omega)]
      obtain ⟨s', e', h'⟩ := ih ⟨s.bytes ++ List.replicate (s.pos - s.bytes.length) 0#8 ++ [b], s.pos + 1, .wr⟩ (by simp [hp]) (by simp)
      refine ⟨s', by rw [puts, e, Res.ok_bind, e'], ?_⟩
      rw [h']
      simp [hp]
  obtain ⟨s, e, h⟩ := key bs tmpfile rfl (by simp [tmpfile])
  exact ⟨s, e, by simpa [tmpfile] using h⟩

/-! ### the simulation -/

/-- ports and what a user sees of them -/
def PR : Port → AP → Prop
  | p, .out t => ∃ s, p = ⟨true, false, true, some s⟩ ∧ OutS s t
  | p, .inp t => ∃ s, p = ⟨true, true, true, some s⟩ ∧ InS s t
  | p, .closed i => p = ⟨false, i, true, none⟩

/-- values and what a user sees of them; strings are shorter than 2^62 bytes and ports exist -/
inductive VR (h : Heap) (k : Nat) : PV → AV → Prop where
  | num (w : Word) : VR h k (.val (.num w)) (.num w)
  | char (b : Byte) : VR h k (.val (.char b)) (.char b)
  | text (a : Nat) (t : List Byte) (ht : Text h (.str a) t) (hl : t.length < 2 ^ 62) : VR h k (.val (.str a)) (.text t)
  | port (n : Nat) (hn : n < k) : VR h k (.port n) (.port n)
  | eof : VR h k .eof .eof
  | void : VR h k .void .void
  | bool (b : Bool) : VR h k (.bool b) (.bool b)

theorem VR.shows {w : World} {k : Nat} {v : PV} {a : AV} (h : VR w.heap k v a) : Shows w v a := by
  cases h with
  | text a t ht hl => exact ht
  | eof => trivial
  | void => trivial
  | _ => exact rfl

theorem text_append {h : Heap} {v : Val} {t : List Byte} (ht : Text h v t) (o : List Str.Obj) : Text (h ++ o) v t := by
  obtain ⟨a, rest, rfl, e, hn⟩ := ht
  refine ⟨a, rest, rfl, ?_, hn⟩
  rw [List.getElem?_append_left]
  · exact e
  · rw [List.getElem?_eq_some_iff] at e
    exact e.1

theorem VR.mono {h : Heap} {k : Nat} {v : PV} {a : AV} (x : VR h k v a) (o : List Str.Obj) {k' : Nat} (hk : k ≤ k') : VR (h ++ o) k' v a := by
  cases x with
  | num w => exact .num w
  | char b => exact .char b
  | text a t ht hl => exact .text a t (text_append ht o) hl
  | port n hn => exact .port n (Nat.lt_of_lt_of_le hn hk)
  | eof => exact .eof
  | void => exact .void
  | bool b => exact .bool b

/-- the whole state -/
structure Rel (w : World) (rs : List PV) (ps : List AP) (as : List AV) : Prop where
  ports : List.Forall₂ PR w.ports ps
  vals : List.Forall₂ (VR w.heap w.ports.length) rs as

/-- agreement of outcomes: the new state only adds strings and ports -/
def Agree (w : World) : Res (World × PV) → Res (List AP × AV) → Prop
  | r, .ok (ps, a) => ∃ o ps' v, r = .ok (⟨w.heap ++ o, ps'⟩, v) ∧ w.ports.length ≤ ps'.length ∧ List.Forall₂ PR ps' ps ∧ VR (w.heap ++ o) ps'.length v a
  | r, .err => r = .err
  | _, _ => False

theorem forall₂_get {α β : Type} {R : α → β → Prop} {xs : List α} {ys : List β} (h : List.Forall₂ R xs ys) (n : Nat) :
    (∃ x y, xs[n]? = some x ∧ ys[n]? = some y ∧ R x y) ∨ (xs[n]? = none ∧ ys[n]? = none) := by
  induction h generalizing n with
  | nil => exact .inr ⟨by simp, by simp⟩
  | cons h _ ih =>
    cases n with
    | zero => exact .inl ⟨_, _, by simp, by simp, h⟩
    | succ n => simpa using ih n

theorem forall₂_set {α β : Type} {R : α → β → Prop} {xs : List α} {ys : List β} (h : List.Forall₂ R xs ys) (n : Nat) {x : α} {y : β} (hxy : R x y) :
    List.Forall₂ R (xs.set n x) (ys.set n y) := by
  induction h generalizing n with
  | nil => simp
  | cons h t ih =>
    cases n with
    | zero => exact .cons hxy t
    | succ n => exact .cons h (ih n)

theorem forall₂_set_left {α β : Type} {R : α → β → Prop} {xs : List α} {ys : List β} (h : List.Forall₂ R xs ys) (n : Nat) {x : α} {y : β} (e : ys[n]? = some y) (hxy : R x y) :
    List.Forall₂ R (xs.set n x) ys := by
  have := forall₂_set h n hxy
  have e' : ys.set n y = ys := by
    rw [List.getElem?_eq_some_iff] at e
    obtain ⟨hl, rfl⟩ := e
    exact List.set_getElem_self hl
  rwa [e'] at this

theorem arg_cases {w : World} {rs : List PV} {as : List AV} {k : Nat} (h : List.Forall₂ (VR w.heap k) rs as) (i : Nat) :
    (∃ v a, get rs i = .ok v ∧ arg as i = .ok a ∧ VR w.heap k v a ∧ as[i]? = some a) ∨ (get rs i = .err ∧ arg as i = .err) := by
  rcases forall₂_get h i with ⟨x, y, e1, e2, hr⟩ | ⟨e1, e2⟩
  · exact .inl ⟨x, y, by simp [get, e1], by simp [arg, e2], hr, e2⟩
  · exact .inr ⟨by simp [get, e1], by simp [arg, e2]⟩

theorem isInput_eq {w : World} {ps : List AP} {v : PV} {a : AV} (hp : List.Forall₂ PR w.ports ps) (hv : VR w.heap w.ports.length v a) :
    isInput w v = .ok (inputP ps a) := by
  cases hv with
  | port n hn =>
    rcases forall₂_get hp n with ⟨x, y, e1, e2, hr⟩ | ⟨e1, e2⟩
    · cases y with
      | out t => obtain ⟨s, rfl, -⟩ := hr; simp [isInput, portAt, e1, inputP, e2]
      | inp t => obtain ⟨s, rfl, -⟩ := hr; simp [isInput, portAt, e1, inputP, e2]
      | closed i => obtain rfl := hr; simp [isInput, portAt, e1, inputP, e2]
    · simp at e1; omega
  | _ => rfl

theorem isOutput_eq {w : World} {ps : List AP} {v : PV} {a : AV} (hp : List.Forall₂ PR w.ports ps) (hv : VR w.heap w.ports.length v a) :
    isOutput w v = .ok (outputP ps a) := by
  cases hv with
  | port n hn =>
    rcases forall₂_get hp n with ⟨x, y, e1, e2, hr⟩ | ⟨e1, e2⟩
    · cases y with
      | out t => obtain ⟨s, rfl, -⟩ := hr; simp [isOutput, portAt, e1, outputP, e2]
      | inp t => obtain ⟨s, rfl, -⟩ := hr; simp [isOutput, portAt, e1, outputP, e2]
      | closed i => obtain rfl := hr; simp [isOutput, portAt, e1, outputP, e2]
    · simp at e1; omega
  | _ => rfl

theorem isString_eq {w : World} {ps : List AP} {n : Nat} (hp : List.Forall₂ PR w.ports ps) (hn : n < w.ports.length) :
    isString w (.port n) = .ok true ∧ (ps[n]?).isSome = true := by
  rcases forall₂_get hp n with ⟨x, y, e1, e2, hr⟩ | ⟨e1, e2⟩
  · cases y with
    | out t => obtain ⟨s, rfl, -⟩ := hr; simp [isString, portAt, e1, e2]
    | inp t => obtain ⟨s, rfl, -⟩ := hr; simp [isString, portAt, e1, e2]
    | closed i => obtain rfl := hr; simp [isString, portAt, e1, e2]
  · simp at e1; omega

/-- an output port that is open, or something that is refused -/
theorem out_cases {w : World} {ps : List AP} {v : PV} {a : AV} (hp : List.Forall₂ PR w.ports ps) (hv : VR w.heap w.ports.length v a)
    (hc : ∀ n i, a = .port n → ps[n]? ≠ some (.closed i)) :
    (∃ n s t, v = .port n ∧ a = .port n ∧ ps[n]? = some (.out t) ∧ w.ports[n]? = some ⟨true, false, true, some s⟩ ∧ OutS s t ∧ isOutput w v = .ok true) ∨
    (isOutput w v = .ok false ∧ (∀ n t, a = .port n → ps[n]? ≠ some (.out t)) ∧ ∀ bs, append ps a bs = .err) := by
  rw [isOutput_eq hp hv]
  cases hv with
  | port n hn =>
    rcases forall₂_get hp n with ⟨x, y, e1, e2, hr⟩ | ⟨e1, e2⟩
    · cases y with
      | out t => obtain ⟨s, rfl, hs⟩ := hr; exact .inl ⟨n, s, t, rfl, rfl, e2, e1, hs, by simp [outputP, e2]⟩
      | inp t =>
        refine .inr ⟨by simp [outputP, e2], ?_, by simp [append, e2]⟩
        intro m u h
        cases h
        simp [e2]
      | closed i => exact absurd e2 (hc n i rfl)
    · simp at e1; omega
  | _ => exact .inr ⟨rfl, by simp, fun _ => rfl⟩

/-- an input port that is open, or something that is refused -/
theorem in_cases {w : World} {ps : List AP} {v : PV} {a : AV} (hp : List.Forall₂ PR w.ports ps) (hv : VR w.heap w.ports.length v a)
    (hc : ∀ n i, a = .port n → ps[n]? ≠ some (.closed i)) :
    (∃ n s t, v = .port n ∧ a = .port n ∧ ps[n]? = some (.inp t) ∧ w.ports[n]? = some ⟨true, true, true, some s⟩ ∧ InS s t ∧ isInput w v = .ok true) ∨
    (isInput w v = .ok false ∧ ∀ n, a = .port n → ∃ t, ps[n]? = some (.out t)) := by
  rw [isInput_eq hp hv]
  cases hv with
  | port n hn =>
    rcases forall₂_get hp n with ⟨x, y, e1, e2, hr⟩ | ⟨e1, e2⟩
    · cases y with
      | inp t => obtain ⟨s, rfl, hs⟩ := hr; exact .inl ⟨n, s, t, rfl, rfl, e2, e1, hs, by simp [inputP, e2]⟩
      | out t =>
        refine .inr ⟨by simp [inputP, e2], ?_⟩
        intro m h
        cases h
        exact ⟨t, e2⟩
      | closed i => exact absurd e2 (hc n i rfl)
    · simp at e1; omega
  | _ => exact .inr ⟨rfl, by simp⟩

theorem NotClosed.arg {ps : List AP} {as : List AV} {p : Nat} {a : AV} (h : NotClosed ps as p) (e : as[p]? = some a) :
    ∀ n i, a = .port n → ps[n]? ≠ some (.closed i) := fun n i ha => h n i (ha ▸ e)

theorem streamOf_eq {w : World} {n : Nat} {o r t : Bool} {s : Stream} (e : w.ports[n]? = some ⟨o, r, t, some s⟩) : streamOf w n = .ok s := by
  simp [streamOf, portAt, e]

theorem setStream_eq {w : World} {n : Nat} {o r t : Bool} {s s' : Stream} (e : w.ports[n]? = some ⟨o, r, t, some s⟩) :
    setStream w n s' = ⟨w.heap, w.ports.set n ⟨o, r, t, some s'⟩⟩ := by
  simp [setStream, e]

/-- writing to an open output port -/
theorem agree_append {w : World} {ps : List AP} {n : Nat} {s s' : Stream} {t bs : List Byte} (hp : List.Forall₂ PR w.ports ps)
    (e1 : w.ports[n]? = some ⟨true, false, true, some s⟩) (e2 : ps[n]? = some (.out t)) (hs : OutS s' (t ++ bs)) :
    Agree w (void (.ok (setStream w n s'))) (append ps (.port n) bs) := by
  have ea : append ps (.port n) bs = .ok (ps.set n (.out (t ++ bs)), .void) := by simp [append, e2]
  rw [ea, setStream_eq e1]
  exact ⟨[], _, _, by simp [void], by simp, forall₂_set hp n ⟨s', rfl, hs⟩, .void⟩

/-- the loop of `put_string` -/
theorem putLoop_spec (bs : List Byte) (n : Nat) : ∀ (k : Nat) (w : World) (i : Nat) (s : Stream) (t : List Byte),
    w.ports[n]? = some ⟨true, false, true, some s⟩ → OutS s t → i + k ≤ bs.length →
    ∃ s', putLoop bs n k w i = .ok (setStream w n s') ∧ OutS s' (t ++ (bs.drop i).take k)
  | 0, w, i, s, t, e, hs, _ => by
    refine ⟨s, ?_, by simpa using hs⟩
    rw [putLoop, setStream_eq e]
    have e' : w.ports.set n ⟨true, false, true, some s⟩ = w.ports := by
      rw [List.getElem?_eq_some_iff] at e
      obtain ⟨hl, e⟩ := e
      rw [← e]
      exact List.set_getElem_self hl
    rw [e']
  | k + 1, w, i, s, t, e, hs, hl => by
    obtain ⟨b, hb⟩ : ∃ b, bs[i]? = some b := ⟨bs[i]'(by omega), by simp⟩
    obtain ⟨s1, e1, h1⟩ := putc_spec hs b
    have e2 : putChar w n b = .ok (setStream w n s1) := by simp [putChar, streamOf_eq e, e1]
    have e3 : (setStream w n s1).ports[n]? = some ⟨true, false, true, some s1⟩ := by
      rw [setStream_eq e]
      rw [List.getElem?_eq_some_iff] at e
      simp [e.1]
    obtain ⟨s2, e4, h4⟩ := putLoop_spec bs n k (setStream w n s1) (i + 1) s1 (t ++ [b]) e3 h1 (by omega)
    refine ⟨s2, ?_, ?_⟩
    · rw [putLoop]
      simp only [hb, e2, Res.ok_bind, e4]
      rw [setStream_eq e3, setStream_eq e, setStream_eq e]
      simp
    · have : (bs.drop i).take (k + 1) = b :: (bs.drop (i + 1)).take k := by
        rw [List.getElem?_eq_some_iff] at hb
        obtain ⟨hi, rfl⟩ := hb
        rw [List.drop_eq_getElem_cons hi, List.take_succ_cons]
      rw [this]
      simpa using h4

theorem toInt_of_lt {w : Word} (h : w.toNat < 2 ^ 63) : w.toInt = w.toNat := by
  rw [BitVec.toInt_eq_toNat_cond]
  split
  · rfl
  · omega

theorem lt_of_toInt {w : Word} (h : 0 ≤ w.toInt) : w.toNat < 2 ^ 63 := by
  rw [BitVec.toInt_eq_toNat_cond] at h
  have := w.isLt
  split at h <;> omega

theorem fx2Add_ok {x y : Word} (h : x.toNat + y.toNat < 2 ^ 63) : Num.fx2Add x y = .ok (x + y) ∧ (x + y).toNat = x.toNat + y.toNat := by
  have hx : x.toNat < 2 ^ 63 := by omega
  have hy : y.toNat < 2 ^ 63 := by omega
  refine ⟨?_, by rw [BitVec.toNat_add]; omega⟩
  unfold Num.fx2Add
  rw [if_neg]
  simp only [BitVec.saddOverflow, toInt_of_lt hx, toInt_of_lt hy]
  simp
  omega

theorem fx2Sub_ok {x y : Word} (hx : x.toNat < 2 ^ 63) (hy : y.toNat < 2 ^ 63) : Num.fx2Sub x y = .ok (x - y) := by
  unfold Num.fx2Sub
  rw [if_neg]
  simp only [BitVec.ssubOverflow, toInt_of_lt hx, toInt_of_lt hy]
  simp
  omega

theorem sle_iff {x y : Word} (hx : x.toNat < 2 ^ 63) (hy : y.toNat < 2 ^ 63) : x.sle y = true ↔ x.toNat ≤ y.toNat := by
  simp [BitVec.sle, toInt_of_lt hx, toInt_of_lt hy]

theorem slt_iff {x y : Word} (hx : x.toNat < 2 ^ 63) (hy : y.toNat < 2 ^ 63) : x.slt y = true ↔ x.toNat < y.toNat := by
  simp [BitVec.slt, toInt_of_lt hx, toInt_of_lt hy]

/-- `put_string` on a range inside the text -/
theorem putString_spec {w : World} {n a : Nat} {s : Stream} {t u rest : List Byte} {x y : Word}
    (e : w.ports[n]? = some ⟨true, false, true, some s⟩) (hs : OutS s t) (eb : w.heap[a]? = some (.buf (u ++ 0#8 :: rest))) (hu : u.length < 2 ^ 62)
    (hr : x.toNat + y.toNat ≤ u.length) :
    ∃ s', putString w n a x y = .ok (setStream w n s') ∧ OutS s' (t ++ (u.drop x.toNat).take y.toNat) := by
  have h62 : (2 : Nat) ^ 62 < 2 ^ 63 := by decide
  obtain ⟨e1, e2⟩ := fx2Add_ok (x := x) (y := y) (by omega)
  obtain ⟨s', e3, h3⟩ := putLoop_spec (u ++ 0#8 :: rest) n y.toNat w x.toNat s t e hs (by simp; omega)
  refine ⟨s', ?_, ?_⟩
  · have hx : ¬ (x.slt 0#64 = true) := by rw [Str.slt_zero_iff]; omega
    have hy : ¬ ((x + y).slt x = true) := by rw [slt_iff (by omega) (by omega)]; omega
    have hsub : (x + y - x).toNat = y.toNat := by
      have : x + y - x = y := by
        rw [BitVec.add_comm, BitVec.add_sub_cancel]
      rw [this]
    unfold putString
    rw [Str.bufOf_eq eb]
    simp only [Res.ok_bind, e1, if_neg hx, if_neg hy, hsub, e3]
  · rw [List.drop_append_of_le_length (by omega), List.take_append_of_le_length (by simp; omega)] at h3
    exact h3

theorem putString1_spec {w : World} {n a : Nat} {u rest : List Byte} {x y : Word}
    (eb : w.heap[a]? = some (.buf (u ++ 0#8 :: rest))) (hn : 0#8 ∉ u) (hu : u.length < 2 ^ 62) (hx : x.toNat < 2 ^ 63) (hy : x.toNat ≤ u.length → x.toNat + y.toNat < 2 ^ 63) :
    putString1 w n a x y = if x.toNat + y.toNat ≤ u.length then putString w n a x y else .err := by
  have h62 : (2 : Nat) ^ 62 < 2 ^ 63 := by decide
  have el : (BitVec.ofNat 64 u.length).toNat = u.length := Str.toNat_ofNat64 (by omega)
  unfold putString1
  rw [Str.stringLength_text eb hn]
  simp only [Res.ok_bind]
  have h1 : Num.fx2Le x (BitVec.ofNat 64 u.length) = true ↔ x.toNat ≤ u.length := by
    unfold Num.fx2Le
    rw [sle_iff hx (by omega), el]
  by_cases h : x.toNat ≤ u.length
  · obtain ⟨e1, e2⟩ := fx2Add_ok (x := x) (y := y) (hy h)
    have h2 : Num.fx2Le (x + y) (BitVec.ofNat 64 u.length) = true ↔ x.toNat + y.toNat ≤ u.length := by
      unfold Num.fx2Le
      rw [sle_iff (by rw [e2]; exact hy h) (by omega), el, e2]
    rw [if_pos (h1.2 h)]
    simp only [e1, Res.ok_bind]
    by_cases h3 : x.toNat + y.toNat ≤ u.length
    · rw [if_pos (h2.2 h3), if_pos h3]
    · rw [if_neg (fun e => h3 (h2.1 e)), if_neg h3]
  · rw [if_neg (fun e => h (h1.1 e)), if_neg (by omega)]

theorem getc_spec {s : Stream} {t : List Byte} (hs : InS s t) :
    (∃ s', getc s = .ok (s', t.head?) ∧ InS s' t.tail ∧ InS (ungetc s' t.head?) t) := by
  obtain ⟨⟨d, hb, hp⟩, hl⟩ := hs
  unfold getc
  rw [if_neg hl]
  cases t with
  | nil =>
    have : s.bytes[s.pos]? = none := by simp [hb, hp]
    rw [this]
    exact ⟨_, rfl, ⟨⟨d, hb, hp⟩, by simp⟩, ⟨⟨d, hb, hp⟩, by simp [ungetc]⟩⟩
  | cons b t =>
    have : s.bytes[s.pos]? = some b := by simp [hb, hp]
    rw [this]
    exact ⟨_, rfl, ⟨⟨d ++ [b], by simp [hb], by simp [hp]⟩, by simp⟩, ⟨⟨d, by simp [ungetc, hb], by simp [ungetc, hp]⟩, by simp [ungetc]⟩⟩

/-- reading out an open output port -/
theorem getOutputString_spec {w : World} {n : Nat} {s : Stream} {t : List Byte} (e : w.ports[n]? = some ⟨true, false, true, some s⟩) (hs : OutS s t)
    (ht : t.length < 2 ^ 62) :
    ∃ s', getOutputString w n = .ok (⟨w.heap ++ [.buf (t ++ [0#8])], w.ports.set n ⟨true, false, true, some s'⟩⟩, .val (.str w.heap.length)) ∧ OutS s' [] := by
  have h62 : (2 : Nat) ^ 62 + 1 < 2 ^ 63 := by decide
  obtain ⟨hp, ⟨r, hr⟩, hl⟩ := hs
  unfold getOutputString
  rw [streamOf_eq e]
  simp only [Res.ok_bind]
  cases t with
  | nil =>
    refine ⟨s, ?_, hp, ⟨r, hr⟩, hl⟩
    have e' : w.ports.set n ⟨true, false, true, some s⟩ = w.ports := by
      rw [List.getElem?_eq_some_iff] at e
      obtain ⟨hl, e⟩ := e
      rw [← e]
      exact List.set_getElem_self hl
    rw [if_neg (by simp [hp]), e']
    rfl
  | cons b t =>
    rw [if_pos (by simp [hp])]
    have el : (BitVec.ofNat 64 s.pos).toNat = (b :: t).length := by rw [hp]; exact Str.toNat_ofNat64 (by omega)
    rw [Str.mstring2_eq w.heap (by rw [el]; omega)]
    have ef : fread (rewind s) s.pos = .ok (⟨s.bytes, s.pos, .rd⟩, some (b :: t)) := by
      unfold fread rewind
      rw [if_neg (by simp), if_pos (by simp [hr, hp])]
      simp [hr, hp]
    simp only [Res.ok_bind, ef]
    refine ⟨rewind ⟨s.bytes, s.pos, .rd⟩, ?_, by simp [rewind], ⟨s.bytes, by simp [rewind]⟩, by simp [rewind]⟩
    simp [setStream, e]

theorem takeWhile_text (t : List Byte) (k : Nat) (h : Heap) (rest : List Byte) (e : h[k]? = some (.buf (t ++ 0#8 :: rest))) : Text h (.str k) (t.takeWhile (· ≠ 0#8)) := by
  have hn : 0#8 ∉ t.takeWhile (· ≠ 0#8) := fun hm => cstr_ne_zero t _ hm rfl
  refine ⟨k, (t.dropWhile (· ≠ 0#8) ++ 0#8 :: rest).tail, rfl, ?_, hn⟩
  rw [e]
  have key : ∀ t : List Byte, t ++ 0#8 :: rest = t.takeWhile (· ≠ 0#8) ++ 0#8 :: (t.dropWhile (· ≠ 0#8) ++ 0#8 :: rest).tail := by
    intro t
    induction t with
    | nil => simp
    | cons b t ih =>
      by_cases hb : b = 0#8
      · simp [hb]
      · rw [List.takeWhile_cons_of_pos (by simpa using hb), List.dropWhile_cons_of_pos (by simpa using hb), List.cons_append, ih]
        rfl
  rw [← key]

theorem takeWhile_le (t : List Byte) : (t.takeWhile (· ≠ 0#8)).length ≤ t.length := (List.takeWhile_sublist _).length_le

theorem agree_err {w : World} {r : Res (World × PV)} (h : r = .err) : Agree w r .err := h

/-- one operation -/
theorem step_agree {w : World} {rs : List PV} {ps : List AP} {as : List AV} (h : Rel w rs ps as) (o : Op) (hs : Safe ps as o) :
    Agree w (step w rs o) (astep ps as o) := by
  obtain ⟨hp, hv⟩ := h
  have h62 : (2 : Nat) ^ 62 < 2 ^ 63 := by decide
  cases o with
  | text t =>
    refine ⟨[.buf (cstr t ++ [0#8])], w.ports, .val (.str w.heap.length), rfl, Nat.le_refl _, hp, .text _ _ ?_ (Nat.lt_of_le_of_lt (takeWhile_le t) hs)⟩
    have := takeWhile_text (cstr t) w.heap.length (w.heap ++ [.buf (cstr t ++ [0#8])]) [] (by simp)
    have e : (cstr t).takeWhile (· ≠ 0#8) = t.takeWhile (· ≠ 0#8) := cstr_idem t
    rw [e] at this
    exact this
  | num n => exact ⟨[], w.ports, _, by simp [step], Nat.le_refl _, hp, .num n⟩
  | char b => exact ⟨[], w.ports, _, by simp [step], Nat.le_refl _, hp, .char b⟩
  | openOut =>
    refine ⟨[], w.ports ++ [⟨true, false, true, some tmpfile⟩], .port w.ports.length, by simp [step, openOutputString], by simp, ?_, ?_⟩
    · exact List.rel_append hp (.cons ⟨tmpfile, rfl, rfl, ⟨[], rfl⟩, by simp [tmpfile]⟩ .nil)
    · rw [← hp.length_eq]
      exact .port _ (by simp)
  | openIn i =>
    rcases arg_cases hv i with ⟨v, a, e1, e2, hr, -⟩ | ⟨e1, e2⟩
    · simp only [step, astep, e1, e2, Res.ok_bind]
      cases hr with
      | text a t ht hl =>
        obtain ⟨a, rest, hh, eb, hn⟩ := ht
        cases hh
        obtain ⟨s, es, hb⟩ := puts_tmpfile ((t ++ 0#8 :: rest).take t.length)
        have e3 : openInputString w a = .ok (⟨w.heap, w.ports ++ [⟨true, true, true, some (rewind s)⟩]⟩, .port w.ports.length) := by
          unfold openInputString
          rw [Str.bufOf_eq eb, Res.ok_bind, Str.strlen_text t rest hn, Res.ok_bind, es]
          rfl
        refine ⟨[], w.ports ++ [⟨true, true, true, some (rewind s)⟩], .port w.ports.length, ?_, by simp, ?_, ?_⟩
        · simp only [pOpenInputString]
          rw [e3]
          simp
        · refine List.rel_append hp (.cons ⟨_, rfl, ⟨[], ?_, rfl⟩, by simp [rewind]⟩ .nil)
          simpa [rewind] using hb
        · rw [← hp.length_eq]
          exact .port _ (by simp)
      | _ => exact rfl
    · simp only [step, astep, e1, e2, Res.err_bind]
      exact rfl
  | putChar p c =>
    rcases arg_cases hv p with ⟨v, a, e1, e2, hr, ha⟩ | ⟨e1, e2⟩
    · rcases arg_cases hv c with ⟨vc, ac, e3, e4, hc, -⟩ | ⟨e3, e4⟩
      · simp only [step, astep, e1, e2, e3, e4, Res.ok_bind]
        rcases out_cases hp hr (hs.arg ha) with ⟨n, s, t, rfl, rfl, e5, e6, hS, e7⟩ | ⟨e5, -, e6⟩
        · cases hc with
          | char b =>
            obtain ⟨s1, e8, h8⟩ := putc_spec hS b
            have e9 : pPutChar w (.port n) (.val (.char b)) = .ok (setStream w n s1) := by
              simp [pPutChar, e7, portNo, putChar, streamOf_eq e6, e8]
            rw [e9]
            exact agree_append hp e6 e5 h8
          | _ => simp [pPutChar, e7, void, Agree]
        · have e9 : pPutChar w v vc = .err := by simp [pPutChar, e5]
          rw [e9]
          cases hc <;> simp [e6, void, Agree]
      · simp only [step, astep, e1, e2, e3, e4, Res.ok_bind, Res.err_bind]
        exact rfl
    · simp only [step, astep, e1, e2, Res.err_bind]
      exact rfl
  | putString p i =>
    rcases arg_cases hv p with ⟨v, a, e1, e2, hr, ha⟩ | ⟨e1, e2⟩
    · rcases arg_cases hv i with ⟨vc, ac, e3, e4, hc, -⟩ | ⟨e3, e4⟩
      · simp only [step, astep, e1, e2, e3, e4, Res.ok_bind]
        rcases out_cases hp hr (hs.arg ha) with ⟨n, s, t, rfl, rfl, e5, e6, hS, e7⟩ | ⟨e5, -, e6⟩
        · cases hc with
          | text a u ht hl =>
            obtain ⟨a, rest, hh, eb, hn⟩ := ht
            cases hh
            have el : (BitVec.ofNat 64 u.length).toNat = u.length := Str.toNat_ofNat64 (by omega)
            obtain ⟨s1, e8, h8⟩ := putString_spec (x := 0#64) (y := BitVec.ofNat 64 u.length) e6 hS eb hl (by rw [el]; simp)
            have e9 : pPutString2 w (.port n) (.val (.str a)) = .ok (setStream w n s1) := by
              simp only [pPutString2, e7, Res.ok_bind, if_pos, portNo, Str.stringLength_text eb hn, e8]
            rw [e9]
            refine agree_append hp e6 e5 ?_
            rw [el] at h8
            simpa using h8
          | _ => simp [pPutString2, e7, void, Agree]
        · have e9 : pPutString2 w v vc = .err := by simp [pPutString2, e5]
          rw [e9]
          cases hc <;> simp [e6, void, Agree]
      · simp only [step, astep, e1, e2, e3, e4, Res.ok_bind, Res.err_bind]
        exact rfl
    · simp only [step, astep, e1, e2, Res.err_bind]
      exact rfl
  | putFrom p i j =>
    rcases arg_cases hv p with ⟨v, a, e1, e2, hr, ha⟩ | ⟨e1, e2⟩
    · rcases arg_cases hv i with ⟨vc, ac, e3, e4, hc, -⟩ | ⟨e3, e4⟩
      · rcases arg_cases hv j with ⟨vj, aj, ej, ej', hj, -⟩ | ⟨ej, ej'⟩
        · simp only [step, astep, e1, e2, e3, e4, ej, ej', Res.ok_bind]
          rcases out_cases hp hr (hs.arg ha) with ⟨n, s, t, rfl, rfl, e5, e6, hS, e7⟩ | ⟨e5, -, e6⟩
          · cases hc with
            | text a u ht hl =>
              cases hj with
              | num x =>
                obtain ⟨a, rest, hh, eb, hn⟩ := ht
                cases hh
                have el : (BitVec.ofNat 64 u.length).toNat = u.length := Str.toNat_ofNat64 (by omega)
                have eq : pPutString3 w (.port n) (.val (.str a)) (.val (.num x)) =
                    if Str.nonNeg x then putString1 w n a x (BitVec.ofNat 64 u.length - x) else .err := by
                  simp only [pPutString3, e7, Res.ok_bind, if_pos, portNo, Str.stringLength_text eb hn]
                  by_cases hx : Str.nonNeg x = true
                  · rw [if_pos hx, if_pos hx, fx2Sub_ok (by omega) ((Str.nonNeg_iff x).1 hx)]
                    rfl
                  · rw [if_neg hx, if_neg hx]
                rw [eq]
                dsimp only
                by_cases hx : Str.nonNeg x = true
                · have hx' := (Str.nonNeg_iff x).1 hx
                  rw [if_pos hx]
                  have hsub : x.toNat ≤ u.length → (BitVec.ofNat 64 u.length - x).toNat = u.length - x.toNat := by
                    intro h
                    rw [BitVec.toNat_sub, el]
                    omega
                  rw [putString1_spec eb hn hl hx' (fun h => by rw [hsub h]; omega), toInt_of_lt hx']
                  by_cases hb : x.toNat ≤ u.length
                  · rw [if_pos (by rw [hsub hb]; omega), if_pos (by omega)]
                    obtain ⟨s1, e8, h8⟩ := putString_spec (x := x) (y := BitVec.ofNat 64 u.length - x) e6 hS eb hl (by rw [hsub hb]; omega)
                    rw [e8]
                    refine agree_append hp e6 e5 ?_
                    rw [hsub hb, List.take_of_length_le (by simp)] at h8
                    exact h8
                  · have := (BitVec.ofNat 64 u.length - x).isLt
                    rw [if_neg (by omega), if_neg (by omega)]
                    exact rfl
                · rw [if_neg hx, if_neg]
                  · exact rfl
                  · rintro ⟨h, -⟩
                    exact hx ((Str.nonNeg_iff x).2 (lt_of_toInt h))
              | _ => simp [pPutString3, e7, void, Agree]
            | _ => simp [pPutString3, e7, void, Agree]
          · have e9 : pPutString3 w v vc vj = .err := by simp [pPutString3, e5]
            rw [e9]
            cases hc <;> cases hj <;> simp [e6, void, Agree]
        · simp only [step, astep, e1, e2, e3, e4, ej, ej', Res.ok_bind, Res.err_bind]
          exact rfl
      · simp only [step, astep, e1, e2, e3, e4, Res.ok_bind, Res.err_bind]
        exact rfl
    · simp only [step, astep, e1, e2, Res.err_bind]
      exact rfl
  | putRange p i j k =>
    rcases arg_cases hv p with ⟨v, a, e1, e2, hr, ha⟩ | ⟨e1, e2⟩
    · rcases arg_cases hv i with ⟨vc, ac, e3, e4, hc, hci⟩ | ⟨e3, e4⟩
      · rcases arg_cases hv j with ⟨vj, aj, ej, ej', hj, hji⟩ | ⟨ej, ej'⟩
        · rcases arg_cases hv k with ⟨vk, ak, ek, ek', hk, hki⟩ | ⟨ek, ek'⟩
          · simp only [step, astep, e1, e2, e3, e4, ej, ej', ek, ek', Res.ok_bind]
            rcases out_cases hp hr (hs.1.arg ha) with ⟨n, s, t, rfl, rfl, e5, e6, hS, e7⟩ | ⟨e5, -, e6⟩
            · cases hc with
              | text a u ht hl =>
                cases hj with
                | num x =>
                  cases hk with
                  | num y =>
                    obtain ⟨a, rest, hh, eb, hn⟩ := ht
                    cases hh
                    have hov := hs.2 u x y hci hji hki
                    have eq : pPutString4 w (.port n) (.val (.str a)) (.val (.num x)) (.val (.num y)) =
                        if Str.nonNeg x && Str.nonNeg y then putString1 w n a x y else .err := by
                      simp only [pPutString4, e7, Res.ok_bind, if_pos, portNo]
                    rw [eq]
                    dsimp only
                    by_cases hxy : (Str.nonNeg x && Str.nonNeg y) = true
                    · rw [if_pos hxy]
                      rw [Bool.and_eq_true, Str.nonNeg_iff, Str.nonNeg_iff] at hxy
                      rw [toInt_of_lt hxy.1, toInt_of_lt hxy.2] at hov
                      rw [putString1_spec eb hn hl hxy.1 (fun h => by have := hov (by omega); omega), toInt_of_lt hxy.1, toInt_of_lt hxy.2]
                      by_cases hb : x.toNat + y.toNat ≤ u.length
                      · rw [if_pos hb, if_pos (by omega)]
                        obtain ⟨s1, e8, h8⟩ := putString_spec (x := x) (y := y) e6 hS eb hl hb
                        rw [e8]
                        exact agree_append hp e6 e5 h8
                      · rw [if_neg hb, if_neg (by omega)]
                        exact rfl
                    · rw [if_neg hxy, if_neg]
                      · exact rfl
                      · rintro ⟨h, h', -⟩
                        rw [Bool.and_eq_true, Str.nonNeg_iff, Str.nonNeg_iff] at hxy
                        exact hxy ⟨lt_of_toInt h, lt_of_toInt h'⟩
                  | _ => simp [pPutString4, e7, void, Agree]
                | _ => simp [pPutString4, e7, void, Agree]
              | _ => simp [pPutString4, e7, void, Agree]
            · have e9 : pPutString4 w v vc vj vk = .err := by simp [pPutString4, e5]
              rw [e9]
              cases hc <;> cases hj <;> cases hk <;> simp [e6, void, Agree]
          · simp only [step, astep, e1, e2, e3, e4, ej, ej', ek, ek', Res.ok_bind, Res.err_bind]
            exact rfl
        · simp only [step, astep, e1, e2, e3, e4, ej, ej', Res.ok_bind, Res.err_bind]
          exact rfl
      · simp only [step, astep, e1, e2, e3, e4, Res.ok_bind, Res.err_bind]
        exact rfl
    · simp only [step, astep, e1, e2, Res.err_bind]
      exact rfl
  | newline p =>
    rcases arg_cases hv p with ⟨v, a, e1, e2, hr, ha⟩ | ⟨e1, e2⟩
    · simp only [step, astep, e1, e2, Res.ok_bind]
      rcases out_cases hp hr (hs.arg ha) with ⟨n, s, t, rfl, rfl, e5, e6, hS, e7⟩ | ⟨e5, -, e6⟩
      · obtain ⟨s1, e8, h8⟩ := putc_spec hS 10#8
        have e9 : pNewline w (.port n) = .ok (setStream w n s1) := by
          simp [pNewline, e7, portNo, newlineC, putChar, streamOf_eq e6, e8]
        rw [e9]
        exact agree_append hp e6 e5 h8
      · simp [pNewline, e5, e6, void, Agree]
    · simp only [step, astep, e1, e2, Res.err_bind]
      exact rfl
  | flush p =>
    rcases arg_cases hv p with ⟨v, a, e1, e2, hr, ha⟩ | ⟨e1, e2⟩
    · simp only [step, astep, e1, e2, Res.ok_bind]
      rcases out_cases hp hr (hs.arg ha) with ⟨n, s, t, rfl, rfl, e5, e6, hS, e7⟩ | ⟨e5, -, e6⟩
      · have e9 : pFlush w (.port n) = .ok (setStream w n ⟨s.bytes, s.pos, .none⟩) := by
          simp [pFlush, e7, portNo, flushOutput, streamOf_eq e6, fflush, hS.2.2]
        rw [e9]
        refine agree_append hp e6 e5 ?_
        simpa [OutS] using And.intro hS.1 hS.2.1
      · simp [pFlush, e5, e6, void, Agree]
    · simp only [step, astep, e1, e2, Res.err_bind]
      exact rfl
  | getString p =>
    rcases arg_cases hv p with ⟨v, a, e1, e2, hr, ha⟩ | ⟨e1, e2⟩
    · simp only [step, astep, e1, e2, Res.ok_bind]
      rcases out_cases hp hr (hs.1.arg ha) with ⟨n, s, t, rfl, rfl, e5, e6, hS, e7⟩ | ⟨e5, e6, -⟩
      · have hl := hs.2 n t ha e5
        obtain ⟨s1, e8, h8⟩ := getOutputString_spec e6 hS hl
        have hn : n < w.ports.length := by
          rw [List.getElem?_eq_some_iff] at e6
          exact e6.1
        have e9 : pGetOutputString w (.port n) = getOutputString w n := by
          simp [pGetOutputString, e7, (isString_eq hp hn).1, portNo]
        rw [e9, e8]
        simp only [e5]
        refine ⟨_, _, _, rfl, by simp, forall₂_set hp n ⟨s1, rfl, h8⟩, .text _ _ ?_ (Nat.lt_of_le_of_lt (takeWhile_le t) hl)⟩
        exact takeWhile_text t _ _ [] (by simp)
      · have e9 : pGetOutputString w v = .err := by simp [pGetOutputString, e5]
        rw [e9]
        cases hr with
        | port n hn =>
          cases h : ps[n]? with
          | none => simp [h, Agree]
          | some y =>
            cases y with
            | out t => exact absurd h (e6 n t rfl)
            | _ => simp [h, Agree]
        | _ => simp [Agree]
    · simp only [step, astep, e1, e2, Res.err_bind]
      exact rfl
  | readChar p =>
    rcases arg_cases hv p with ⟨v, a, e1, e2, hr, ha⟩ | ⟨e1, e2⟩
    · simp only [step, astep, e1, e2, Res.ok_bind]
      rcases in_cases hp hr (hs.arg ha) with ⟨n, s, t, rfl, rfl, e5, e6, hS, e7⟩ | ⟨e5, e6⟩
      · obtain ⟨s1, e8, h8, -⟩ := getc_spec hS
        have e9 : pInput readChar w (.port n) = readChar w n := by simp [pInput, e7, portNo]
        rw [e9]
        simp only [e5, readChar, streamOf_eq e6, Res.ok_bind, e8, setStream_eq e6]
        cases t with
        | nil => exact ⟨[], _, _, by simp, by simp, forall₂_set_left hp n e5 ⟨s1, rfl, h8⟩, .eof⟩
        | cons b t => exact ⟨[], _, _, by simp, by simp, forall₂_set hp n ⟨s1, rfl, h8⟩, .char b⟩
      · have e9 : pInput readChar w v = .err := by simp [pInput, e5]
        rw [e9]
        cases hr with
        | port n hn => obtain ⟨t, ht⟩ := e6 n rfl; simp [ht, Agree]
        | _ => simp [Agree]
    · simp only [step, astep, e1, e2, Res.err_bind]
      exact rfl
  | peekChar p =>
    rcases arg_cases hv p with ⟨v, a, e1, e2, hr, ha⟩ | ⟨e1, e2⟩
    · simp only [step, astep, e1, e2, Res.ok_bind]
      rcases in_cases hp hr (hs.arg ha) with ⟨n, s, t, rfl, rfl, e5, e6, hS, e7⟩ | ⟨e5, e6⟩
      · obtain ⟨s1, e8, -, h8⟩ := getc_spec hS
        have e9 : pInput peekChar w (.port n) = peekChar w n := by simp [pInput, e7, portNo]
        rw [e9]
        simp only [e5, peekChar, streamOf_eq e6, Res.ok_bind, e8, setStream_eq e6]
        cases t with
        | nil => exact ⟨[], _, _, by simp, by simp, forall₂_set_left hp n e5 ⟨_, rfl, h8⟩, .eof⟩
        | cons b t => exact ⟨[], _, _, by simp, by simp, forall₂_set_left hp n e5 ⟨_, rfl, h8⟩, .char b⟩
      · have e9 : pInput peekChar w v = .err := by simp [pInput, e5]
        rw [e9]
        cases hr with
        | port n hn => obtain ⟨t, ht⟩ := e6 n rfl; simp [ht, Agree]
        | _ => simp [Agree]
    · simp only [step, astep, e1, e2, Res.err_bind]
      exact rfl
  | charReady p =>
    rcases arg_cases hv p with ⟨v, a, e1, e2, hr, ha⟩ | ⟨e1, e2⟩
    · simp only [step, astep, e1, e2, Res.ok_bind]
      rcases in_cases hp hr (hs.arg ha) with ⟨n, s, t, rfl, rfl, e5, e6, hS, e7⟩ | ⟨e5, e6⟩
      · obtain ⟨s1, e8, -, h8⟩ := getc_spec hS
        have e9 : pInput charReady w (.port n) = charReady w n := by simp [pInput, e7, portNo]
        rw [e9]
        simp only [e5, charReady, streamOf_eq e6, Res.ok_bind, e8, setStream_eq e6]
        cases t with
        | nil => exact ⟨[], _, _, by simp, by simp, forall₂_set_left hp n e5 ⟨_, rfl, h8⟩, .bool _⟩
        | cons b t => exact ⟨[], _, _, by simp, by simp, forall₂_set_left hp n e5 ⟨_, rfl, h8⟩, .bool _⟩
      · have e9 : pInput charReady w v = .err := by simp [pInput, e5]
        rw [e9]
        cases hr with
        | port n hn => obtain ⟨t, ht⟩ := e6 n rfl; simp [ht, Agree]
        | _ => simp [Agree]
    · simp only [step, astep, e1, e2, Res.err_bind]
      exact rfl
  | closeIn p =>
    rcases arg_cases hv p with ⟨v, a, e1, e2, hr, ha⟩ | ⟨e1, e2⟩
    · simp only [step, astep, e1, e2, Res.ok_bind]
      rcases in_cases hp hr (hs.arg ha) with ⟨n, s, t, rfl, rfl, e5, e6, hS, e7⟩ | ⟨e5, e6⟩
      · have e9 : pCloseInput w (.port n) = .ok ⟨w.heap, w.ports.set n ⟨false, true, true, none⟩⟩ := by
          simp [pCloseInput, e7, portNo, closePort, portAt, e6]
        rw [e9]
        simp only [e5]
        exact ⟨[], _, _, by simp [void], by simp, forall₂_set hp n rfl, .void⟩
      · have e9 : pCloseInput w v = .err := by simp [pCloseInput, e5]
        rw [e9]
        cases hr with
        | port n hn => obtain ⟨t, ht⟩ := e6 n rfl; simp [ht, void, Agree]
        | _ => simp [void, Agree]
    · simp only [step, astep, e1, e2, Res.err_bind]
      exact rfl
  | closeOut p =>
    rcases arg_cases hv p with ⟨v, a, e1, e2, hr, ha⟩ | ⟨e1, e2⟩
    · simp only [step, astep, e1, e2, Res.ok_bind]
      rcases out_cases hp hr (hs.arg ha) with ⟨n, s, t, rfl, rfl, e5, e6, hS, e7⟩ | ⟨e5, e6, -⟩
      · have e9 : pCloseOutput w (.port n) = .ok ⟨w.heap, w.ports.set n ⟨false, false, true, none⟩⟩ := by
          simp [pCloseOutput, e7, portNo, closePort, portAt, e6]
        rw [e9]
        simp only [e5]
        exact ⟨[], _, _, by simp [void], by simp, forall₂_set hp n rfl, .void⟩
      · have e9 : pCloseOutput w v = .err := by simp [pCloseOutput, e5]
        rw [e9]
        cases hr with
        | port n hn =>
          cases h : ps[n]? with
          | none => simp [h, void, Agree]
          | some y =>
            cases y with
            | out t => exact absurd h (e6 n t rfl)
            | _ => simp [h, void, Agree]
        | _ => simp [void, Agree]
    · simp only [step, astep, e1, e2, Res.err_bind]
      exact rfl
  | isInput p =>
    rcases arg_cases hv p with ⟨v, a, e1, e2, hr, ha⟩ | ⟨e1, e2⟩
    · simp only [step, astep, e1, e2, Res.ok_bind, isInput_eq hp hr]
      exact ⟨[], w.ports, _, by simp, Nat.le_refl _, hp, .bool _⟩
    · simp only [step, astep, e1, e2, Res.err_bind]
      exact rfl
  | isOutput p =>
    rcases arg_cases hv p with ⟨v, a, e1, e2, hr, ha⟩ | ⟨e1, e2⟩
    · simp only [step, astep, e1, e2, Res.ok_bind, isOutput_eq hp hr]
      exact ⟨[], w.ports, _, by simp, Nat.le_refl _, hp, .bool _⟩
    · simp only [step, astep, e1, e2, Res.err_bind]
      exact rfl
  | isString p =>
    rcases arg_cases hv p with ⟨v, a, e1, e2, hr, ha⟩ | ⟨e1, e2⟩
    · simp only [step, astep, e1, e2, Res.ok_bind]
      cases hr with
      | port n hn =>
        obtain ⟨e3, e4⟩ := isString_eq hp hn
        simp only [e3, e4, Res.ok_bind]
        exact ⟨[], w.ports, _, by simp, Nat.le_refl _, hp, .bool _⟩
      | _ => exact ⟨[], w.ports, _, by simp [isString], Nat.le_refl _, hp, .bool _⟩
    · simp only [step, astep, e1, e2, Res.err_bind]
      exact rfl

theorem run_agree : ∀ (os : List Op) {w : World} {rs : List PV} {ps : List AP} {as : List AV}, Rel w rs ps as → SafeRun ps as os →
    match arun ps as os with
    | .ok (ps', as') => ∃ w' rs', run w rs os = .ok (w', rs') ∧ Rel w' rs' ps' as'
    | .err => run w rs os = .err
    | _ => False
  | [], w, rs, ps, as, h, _ => ⟨w, rs, rfl, h⟩
  | o :: os, w, rs, ps, as, h, hs => by
    have hA := step_agree h o hs.1
    rw [run, arun]
    cases e : astep ps as o with
    | ok x =>
      obtain ⟨ps', v'⟩ := x
      rw [e] at hA
      obtain ⟨o', qs, v, er, hlen, hp', hv'⟩ := hA
      rw [er]
      simp only [Res.ok_bind]
      refine run_agree os ⟨hp', ?_⟩ (hs.2 ps' v' e)
      exact List.rel_append (h.vals.imp fun x y hxy => VR.mono hxy o' hlen) (.cons hv' .nil)
    | err =>
      rw [e] at hA
      have hA : step w rs o = .err := hA
      rw [hA]
      exact rfl
    | ub => rw [e] at hA; exact hA.elim
    | oof => rw [e] at hA; exact hA.elim

/-! ### the properties -/

/-- Any program over string ports behaves as specified, from the start: an output port gives back what was written to it since it was last read out, an input port delivers the
characters of its string one after the other and then the end-of-file object, ports do not affect each other, and arguments of the wrong kind are refused.

Missing for the full claims: operations on closed ports (`C85_negated`), ranges whose end is not a fixnum (`C67_negated_range`), characters after a NUL (the specification cuts the
text there, `C67_negated_nul`). -/
theorem C67_refines_partial (os : List Op) (hs : SafeRun [] [] os) :
    match arun [] [] os with
    | .ok (_, as) => ∃ w rs, run ⟨[], []⟩ [] os = .ok (w, rs) ∧ List.Forall₂ (Shows w) rs as
    | .err => run ⟨[], []⟩ [] os = .err
    | _ => False := by
  have h := run_agree os (w := ⟨[], []⟩) (rs := []) (ps := []) (as := []) ⟨.nil, .nil⟩ hs
  cases e : arun [] [] os with
  | ok x =>
    rw [e] at h
    obtain ⟨w, rs, er, hr⟩ := h
    exact ⟨w, rs, er, hr.vals.imp fun _ _ hv => hv.shows⟩
  | err => rw [e] at h; exact h
  | ub => rw [e] at h; exact h.elim
  | oof => rw [e] at h; exact h.elim

theorem SafeRun.cons {ps ps' : List AP} {rs : List AV} {o : Op} {v : AV} {os : List Op} (hs : Safe ps rs o) (e : astep ps rs o = .ok (ps', v))
    (h : SafeRun ps' (rs ++ [v]) os) : SafeRun ps rs (o :: os) := by
  refine ⟨hs, ?_⟩
  intro ps2 v2 e2
  rw [e] at e2
  cases e2
  exact h

theorem NotClosed.of {ps : List AP} {rs : List AV} {p : Nat}
    (h : (match rs[p]? with | some (.port n) => (match ps[n]? with | some (.closed _) => false | _ => true) | _ => true) = true) : NotClosed ps rs p := by
  intro n i e1 e2
  simp [e1, e2] at h

/-- a program: two output ports and an input port, used in turn -/
def sample : List Op :=
  [.openOut, .openOut, .text [97#8, 98#8, 99#8], .char 120#8, .putString 0 2, .putChar 1 3, .num 1#64, .putFrom 0 2 6, .newline 0, .getString 0, .getString 0,
   .openIn 2, .peekChar 11, .readChar 11, .readChar 11, .readChar 11, .readChar 11, .charReady 11, .putRange 1 2 6 6, .getString 1, .closeOut 0, .isOutput 0]

/-- the refinement applies to it, and the outcome is the expected one -/
example : SafeRun [] [] sample ∧ (arun [] [] sample).Good fun r => r.2.drop 9 =
    [.text [97#8, 98#8, 99#8, 98#8, 99#8, 10#8], .text [], .port 2, .char 97#8, .char 97#8, .char 98#8, .char 99#8, .eof, .bool false, .void, .text [120#8, 98#8], .void, .bool true] := by
  refine ⟨?_, rfl⟩
  unfold sample
  repeat
    refine SafeRun.cons ?_ rfl ?_
    · first
        | exact trivial
        | exact NotClosed.of rfl
        | (show List.length _ < 2 ^ 62; decide)
        | exact ⟨NotClosed.of rfl, fun n t h1 h2 => by cases h1; cases h2; decide⟩
        | exact ⟨NotClosed.of rfl, fun t x y h1 h2 h3 _ => by cases h1; cases h2; cases h3; decide⟩
  exact trivial

/-- write strings to a port one after the other -/
def putAll (w : World) (p : PV) : List PV → Res World
  | [] => .ok w
  | v :: vs => do
    let w ← pPutString2 w p v
    putAll w p vs

theorem putAll_spec : ∀ (vs : List PV) (us : List (List Byte)) (w : World) (n : Nat) (s : Stream) (t : List Byte),
    List.Forall₂ (fun v u => ∃ x, v = .val x ∧ Text w.heap x u) vs us → w.ports[n]? = some ⟨true, false, true, some s⟩ → OutS s t → us.flatten.length < 2 ^ 62 →
    ∃ s', putAll w (.port n) vs = .ok (setStream w n s') ∧ OutS s' (t ++ us.flatten)
  | [], _, w, n, s, t, h, e, hs, _ => by
    cases h
    refine ⟨s, ?_, by simpa using hs⟩
    have e' : w.ports.set n ⟨true, false, true, some s⟩ = w.ports := by
      rw [List.getElem?_eq_some_iff] at e
      obtain ⟨hl, e⟩ := e
      rw [← e]
      exact List.set_getElem_self hl
    rw [putAll, setStream_eq e, e']
  | v :: vs, _, w, n, s, t, h, e, hs, hl => by
    cases h with
    | @cons _ u _ us hu h =>
      obtain ⟨x, rfl, a, rest, rfl, eb, hn⟩ := hu
      rw [List.flatten_cons, List.length_append] at hl
      have h62 : (2 : Nat) ^ 62 < 2 ^ 63 := by decide
      have el : (BitVec.ofNat 64 u.length).toNat = u.length := Str.toNat_ofNat64 (by omega)
      obtain ⟨s1, e8, h8⟩ := putString_spec (x := 0#64) (y := BitVec.ofNat 64 u.length) e hs eb (by omega) (by rw [el]; simp)
      have e9 : pPutString2 w (.port n) (.val (.str a)) = .ok (setStream w n s1) := by
        have e7 : isOutput w (.port n) = .ok true := by simp [isOutput, portAt, e]
        simp only [pPutString2, e7, Res.ok_bind, if_pos, portNo, Str.stringLength_text eb hn, e8]
      have e3 : (setStream w n s1).ports[n]? = some ⟨true, false, true, some s1⟩ := by
        rw [setStream_eq e]
        rw [List.getElem?_eq_some_iff] at e
        simp [e.1]
      have e4 : (setStream w n s1).heap = w.heap := by rw [setStream_eq e]
      rw [el] at h8
      simp only [BitVec.toNat_ofNat, Nat.zero_mod, List.drop_zero, List.take_length] at h8
      obtain ⟨s2, e5, h5⟩ := putAll_spec vs us (setStream w n s1) n s1 (t ++ u) (by rw [e4]; exact h) e3 h8 (by omega)
      refine ⟨s2, ?_, by simpa using h5⟩
      rw [putAll, e9, Res.ok_bind, e5, setStream_eq e3, setStream_eq e, setStream_eq e]
      simp

/-- C67: strings of any number and size (less than 2^62 bytes together) written to a new port come out of `get-output-string` in order and complete; reading the port out empties it.
The strings and all other ports are unchanged.  Missing for the full claim: see `C67_refines_partial`. -/
theorem C67_partial (w : World) (vs : List PV) (us : List (List Byte)) (h : List.Forall₂ (fun v u => ∃ x, v = .val x ∧ Text w.heap x u) vs us)
    (hl : us.flatten.length < 2 ^ 62) :
    ∃ w1 p w2 w3 x w4 y, openOutputString w = (w1, p) ∧ putAll w1 p vs = .ok w2 ∧ pGetOutputString w2 p = .ok (w3, .val x) ∧ Text w3.heap x us.flatten ∧
      pGetOutputString w3 p = .ok (w4, .val y) ∧ Text w4.heap y [] ∧ (∃ o, w4.heap = w.heap ++ o) ∧ (∀ (i : Nat) (q : Port), w.ports[i]? = some q → w4.ports[i]? = some q) := by
  have hn : 0#8 ∉ us.flatten := by
    intro hm
    obtain ⟨u, hu, hb⟩ := List.mem_flatten.1 hm
    clear hl hm
    induction h with
    | nil => cases hu
    | cons hx _ ih =>
      cases hu with
      | head =>
        obtain ⟨x, -, a, rest, -, -, h0⟩ := hx
        exact h0 hb
      | tail _ hu => exact ih hu
  have e0 : (w.ports ++ [(⟨true, false, true, some tmpfile⟩ : Port)])[w.ports.length]? = some ⟨true, false, true, some tmpfile⟩ := by simp
  obtain ⟨s, e1, h1⟩ := putAll_spec vs us ⟨w.heap, w.ports ++ [⟨true, false, true, some tmpfile⟩]⟩ w.ports.length tmpfile [] h e0
    ⟨rfl, ⟨[], rfl⟩, by simp [tmpfile]⟩ hl
  simp only [setStream, e0, List.set_append_right _ _ (Nat.le_refl _), Nat.sub_self, List.set_cons_zero, List.nil_append] at e1 h1
  obtain ⟨s2, e2, h2⟩ := getOutputString_spec (w := ⟨w.heap, w.ports ++ [⟨true, false, true, some s⟩]⟩) (n := w.ports.length) (by simp) h1 hl
  simp only [List.set_append_right _ _ (Nat.le_refl _), Nat.sub_self, List.set_cons_zero] at e2
  obtain ⟨s3, e3, h3⟩ := getOutputString_spec (w := ⟨w.heap ++ [.buf (us.flatten ++ [0#8])], w.ports ++ [⟨true, false, true, some s2⟩]⟩) (n := w.ports.length) (by simp) h2 (by simp)
  simp only [List.set_append_right _ _ (Nat.le_refl _), Nat.sub_self, List.set_cons_zero] at e3
  have e2' : pGetOutputString ⟨w.heap, w.ports ++ [⟨true, false, true, some s⟩]⟩ (.port w.ports.length) =
      .ok (⟨w.heap ++ [.buf (us.flatten ++ [0#8])], w.ports ++ [⟨true, false, true, some s2⟩]⟩, .val (.str w.heap.length)) := by
    simp only [pGetOutputString, isOutput, isString, portAt, List.getElem?_concat_length, Res.ok_bind, Res.pure_eq, Bool.not_false, if_pos, portNo]
    exact e2
  have e3' : pGetOutputString ⟨w.heap ++ [.buf (us.flatten ++ [0#8])], w.ports ++ [⟨true, false, true, some s2⟩]⟩ (.port w.ports.length) =
      .ok (⟨w.heap ++ [.buf (us.flatten ++ [0#8])] ++ [.buf ([] ++ [0#8])], w.ports ++ [⟨true, false, true, some s3⟩]⟩, .val (.str (w.heap ++ [Str.Obj.buf (us.flatten ++ [0#8])]).length)) := by
    simp only [pGetOutputString, isOutput, isString, portAt, List.getElem?_concat_length, Res.ok_bind, Res.pure_eq, Bool.not_false, if_pos, portNo]
    exact e3
  refine ⟨_, _, _, _, _, _, _, rfl, e1, e2', ⟨w.heap.length, [], rfl, by simp, hn⟩, e3', ?_, ?_, ?_⟩
  · exact ⟨_, [], rfl, by simp, by simp⟩
  · exact ⟨_, List.append_assoc ..⟩
  · intro i q hq
    rw [List.getElem?_append_left]
    · exact hq
    · rw [List.getElem?_eq_some_iff] at hq
      exact hq.1

/-- two strings -/
example : List.Forall₂ (fun (v : PV) (u : List Byte) => ∃ x, v = .val x ∧ Text [.buf [97#8, 0#8], .buf [98#8, 99#8, 0#8, 7#8]] x u) [.val (.str 1), .val (.str 0)] [[98#8, 99#8], [97#8]] ∧
    [[98#8, 99#8], [97#8]].flatten.length < 2 ^ 62 :=
  ⟨.cons ⟨_, rfl, 1, [7#8], rfl, rfl, by decide⟩ (.cons ⟨_, rfl, 0, [], rfl, rfl, by decide⟩ .nil), by decide⟩

/-- C67 violated: what follows a NUL character is lost -/
theorem C67_negated_nul : ∃ w rs a, run ⟨[], []⟩ [] [.openOut, .char 0#8, .char 97#8, .putChar 0 1, .putChar 0 2, .getString 0] = .ok (w, rs) ∧
    rs[5]? = some (.val (.str a)) ∧ Text w.heap (.str a) [] :=
  ⟨_, _, 0, rfl, rfl, 0, _, rfl, rfl, by decide⟩

/-- C67 violated: a range whose end is not a fixnum overflows instead of being refused -/
theorem C67_negated_range : run ⟨[], []⟩ [] [.openOut, .text [97#8], .num 1#64, .num 9223372036854775807#64, .putRange 0 1 2 3] = .ub := by decide +kernel

/-- C67 violated: `write-char` never writes -/
theorem C67_negated_write_char (w : World) (c p : PV) : ∀ w', pWriteChar w c p ≠ .ok w' := by
  intro w' h
  unfold pWriteChar at h
  split at h
  · obtain ⟨o, -, h⟩ := Res.bind_eq_ok.1 h
    cases o <;> cases h
  · cases h

/-- read `k` characters -/
def reads (p : PV) : Nat → World → Res (World × List PV)
  | 0, w => .ok (w, [])
  | k + 1, w => do
    let (w, c) ← pInput readChar w p
    let (w, cs) ← reads p k w
    pure (w, c :: cs)

/-- a port, open for input, with these characters still to come (for the statements below) -/
def Pending (w : World) (n : Nat) (t : List Byte) : Prop := ∃ s, w.ports[n]? = some ⟨true, true, true, some s⟩ ∧ InS s t

theorem Pending.set {w : World} {n : Nat} {t u : List Byte} {s : Stream} (h : Pending w n t) (hs : InS s u) :
    Pending (setStream w n s) n u ∧ (setStream w n s).heap = w.heap := by
  obtain ⟨s0, e, -⟩ := h
  rw [setStream_eq e]
  refine ⟨⟨s, ?_, hs⟩, rfl⟩
  rw [List.getElem?_eq_some_iff] at e
  simp [e.1]

theorem pending_readChar {w : World} {n : Nat} {t : List Byte} (h : Pending w n t) :
    ∃ w', pInput readChar w (.port n) = .ok (w', match t.head? with | some b => .val (.char b) | none => .eof) ∧ Pending w' n t.tail := by
  obtain ⟨s, e, hs⟩ := id h
  obtain ⟨s1, e8, h8, -⟩ := getc_spec hs
  refine ⟨setStream w n s1, ?_, (h.set h8).1⟩
  have e7 : isInput w (.port n) = .ok true := by simp [isInput, portAt, e]
  simp only [pInput, e7, Res.ok_bind, if_pos, portNo, readChar, streamOf_eq e, e8]
  cases t <;> rfl

theorem pending_peekChar {w : World} {n : Nat} {t : List Byte} (h : Pending w n t) :
    ∃ w', pInput peekChar w (.port n) = .ok (w', match t.head? with | some b => .val (.char b) | none => .eof) ∧ Pending w' n t := by
  obtain ⟨s, e, hs⟩ := id h
  obtain ⟨s1, e8, -, h8⟩ := getc_spec hs
  refine ⟨setStream w n (ungetc s1 t.head?), ?_, (h.set h8).1⟩
  have e7 : isInput w (.port n) = .ok true := by simp [isInput, portAt, e]
  simp only [pInput, e7, Res.ok_bind, if_pos, portNo, peekChar, streamOf_eq e, e8]
  cases t <;> rfl

/-- what reading delivers: the characters, then the end-of-file object for ever -/
def delivers (t : List Byte) (k : Nat) : List PV := (t.take k).map (fun b => .val (.char b)) ++ List.replicate (k - t.length) .eof

theorem pending_reads : ∀ (k : Nat) {w : World} {n : Nat} {t : List Byte}, Pending w n t →
    ∃ w', reads (.port n) k w = .ok (w', delivers t k) ∧ Pending w' n (t.drop k)
  | 0, w, n, t, h => ⟨w, by simp [reads, delivers], by simpa using h⟩
  | k + 1, w, n, t, h => by
    obtain ⟨w1, e1, h1⟩ := pending_readChar h
    obtain ⟨w2, e2, h2⟩ := pending_reads k h1
    refine ⟨w2, ?_, by simpa using h2⟩
    rw [reads, e1]
    simp only [Res.ok_bind, e2, Res.pure_eq]
    cases t <;> simp [delivers, List.replicate_succ]

/-- C84: reading from a string port delivers the string's characters in order and then the end-of-file object, however often one reads; looking ahead shows the next
character and does not consume it. -/
theorem C84_input (w : World) (v : Val) (t : List Byte) (ht : Text w.heap v t) (i k : Nat) :
    ∃ w1 p w2 w3 w4, pOpenInputString w (.val v) = .ok (w1, p) ∧ reads p i w1 = .ok (w2, delivers t i) ∧
      pInput peekChar w2 p = .ok (w3, match t[i]? with | some b => .val (.char b) | none => .eof) ∧
      reads p k w3 = .ok (w4, delivers (t.drop i) k) := by
  obtain ⟨a, rest, rfl, eb, hn⟩ := ht
  obtain ⟨s, es, hb⟩ := puts_tmpfile ((t ++ 0#8 :: rest).take t.length)
  have e3 : openInputString w a = .ok (⟨w.heap, w.ports ++ [⟨true, true, true, some (rewind s)⟩]⟩, .port w.ports.length) := by
    unfold openInputString
    rw [Str.bufOf_eq eb, Res.ok_bind, Str.strlen_text t rest hn, Res.ok_bind, es]
    rfl
  have h0 : Pending ⟨w.heap, w.ports ++ [⟨true, true, true, some (rewind s)⟩]⟩ w.ports.length t :=
    ⟨rewind s, by simp, ⟨[], by simpa [rewind] using hb, rfl⟩, by simp [rewind]⟩
  obtain ⟨w2, e4, h4⟩ := pending_reads i h0
  obtain ⟨w3, e5, h5⟩ := pending_peekChar h4
  obtain ⟨w4, e6, -⟩ := pending_reads k h5
  refine ⟨_, _, w2, w3, w4, e3, e4, ?_, e6⟩
  rw [e5, List.head?_drop]

/-- a string of three characters, read past its end -/
example : Text (⟨[.buf [97#8, 98#8, 99#8, 0#8]], []⟩ : World).heap (.str 0) [97#8, 98#8, 99#8] ∧
    delivers [97#8, 98#8, 99#8] 5 = [.val (.char 97#8), .val (.char 98#8), .val (.char 99#8), .eof, .eof] :=
  ⟨⟨0, [], rfl, rfl, by decide⟩, rfl⟩

/-- C85, the proved part: whatever is not an output port is refused by the output operations, whatever is not an input port by the input operations. -/
theorem C85_partial (w : World) (p : PV) (hp : ∀ n, p = .port n → n < w.ports.length) :
    ((∀ n q, p = .port n → w.ports[n]? = some q → q.read = true) →
      (∀ c, pPutChar w p c = .err) ∧ (∀ s, pPutString2 w p s = .err) ∧ (∀ s i, pPutString3 w p s i = .err) ∧ (∀ s i k, pPutString4 w p s i k = .err) ∧
      pNewline w p = .err ∧ pFlush w p = .err ∧ pGetOutputString w p = .err ∧ pCloseOutput w p = .err) ∧
    ((∀ n q, p = .port n → w.ports[n]? = some q → q.read = false) → (∀ f, pInput f w p = .err) ∧ pCloseInput w p = .err) := by
  constructor
  · intro h
    have e : isOutput w p = .ok false := by
      cases p with
      | port n =>
        have hn := hp n rfl
        have := h n _ rfl (List.getElem?_eq_getElem hn)
        simp [isOutput, portAt, List.getElem?_eq_getElem hn, this]
      | _ => rfl
    exact ⟨fun c => by simp [pPutChar, e], fun s => by simp [pPutString2, e], fun s i => by simp [pPutString3, e], fun s i k => by simp [pPutString4, e],
      by simp [pNewline, e], by simp [pFlush, e], by simp [pGetOutputString, e], by simp [pCloseOutput, e]⟩
  · intro h
    have e : isInput w p = .ok false := by
      cases p with
      | port n =>
        have hn := hp n rfl
        have := h n _ rfl (List.getElem?_eq_getElem hn)
        simp [isInput, portAt, List.getElem?_eq_getElem hn, this]
      | _ => rfl
    exact ⟨fun f => by simp [pInput, e], by simp [pCloseInput, e]⟩

/-- a closed input port -/
example : ∀ n q, (PV.port 0) = .port n → (⟨[], [⟨false, true, true, none⟩]⟩ : World).ports[n]? = some q → q.read = true := by
  rintro n q h e
  cases h
  cases e
  rfl

/-- C85 violated: every operation on a closed port of the right kind is undefined behaviour, closing it again included -/
theorem C85_negated (w : World) (n : Nat) (o r t : Bool) (e : w.ports[n]? = some ⟨o, r, t, none⟩) :
    (r = true → pInput readChar w (.port n) = .ub ∧ pInput peekChar w (.port n) = .ub ∧ pInput charReady w (.port n) = .ub ∧ pCloseInput w (.port n) = .ub) ∧
    (r = false → (∀ b, pPutChar w (.port n) (.val (.char b)) = .ub) ∧ pNewline w (.port n) = .ub ∧ pFlush w (.port n) = .ub ∧ pCloseOutput w (.port n) = .ub ∧
      (t = true → pGetOutputString w (.port n) = .ub)) := by
  have es : streamOf w n = .ub := by simp [streamOf, portAt, e]
  constructor
  · rintro rfl
    have ei : isInput w (.port n) = .ok true := by simp [isInput, portAt, e]
    simp [pInput, pCloseInput, ei, portNo, readChar, peekChar, charReady, closePort, portAt, e, es]
  · rintro rfl
    have ei : isOutput w (.port n) = .ok true := by simp [isOutput, portAt, e]
    refine ⟨?_, ?_, ?_, ?_, ?_⟩
    · intro b; simp [pPutChar, ei, portNo, putChar, es]
    · simp [pNewline, ei, portNo, newlineC, putChar, es]
    · simp [pFlush, ei, portNo, flushOutput, es]
    · simp [pCloseOutput, ei, portNo, closePort, portAt, e]
    · rintro rfl
      have et : isString w (.port n) = .ok true := by simp [isString, portAt, e]
      simp [pGetOutputString, ei, et, portNo, getOutputString, es]

/-- the state is reachable: closing a port leads to it -/
example : run ⟨[], []⟩ [] [.openOut, .closeOut 0] = .ok (⟨[], [⟨false, false, true, none⟩]⟩, [.port 0, .void]) ∧
    run ⟨[], []⟩ [] [.openOut, .closeOut 0, .getString 0] = .ub := ⟨rfl, rfl⟩

end Minim.Port
