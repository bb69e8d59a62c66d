import Verif.Str

set_option autoImplicit false

/-!
# Ports on files (C113)

io.c:11-36, 72-100, 137-149, 180-191, 200-227 on files, as called by prelude.min:1183-1193, 1201-1211, 1939-1963, 2009-2013.  The C library keeps a buffer for each stream; it writes buffered bytes, and reads ahead, when it likes (`Cmd.spill`, `Cmd.fill`).

Simplifications: a character is the byte that `putc` writes and `getc` returns (`mchar` is `int`, minim.h:32, so no byte is taken for the end of the file); the checks of the prelude are not repeated here (C85); files are named by numbers; opening fails only if a file to be read does not exist; writing does not fail; other processes do not touch the files.
-/

namespace Minim.FPort

/-! ### The code -/

/-- A port (minim.h:287-297) and its stream: one opened for writing, with the number of bytes that are already in the file and those that wait in the buffer; one opened for reading, with the number of bytes that were taken
from the file and those of them that wait in the buffer; or a closed one. -/
inductive Port where
  | out (name off : Nat) (buf : List Byte)
  | inp (name off : Nat) (ahead : List Byte)
  | closed

/-- The files and the ports. -/
structure World where
  files : Nat → Option (List Byte)
  ports : List Port

/-- What programs do with ports, and what the C library does by itself. -/
inductive Cmd where
  | openOut (name : Nat)
  | openIn (name : Nat)
  | put (p : Nat) (b : Byte)
  | flush (p : Nat)
  | closeOut (p : Nat)
  | get (p : Nat)
  | peek (p : Nat)
  | closeIn (p : Nat)
  | collect (p : Nat)
  | spill (p k : Nat)
  | fill (p k : Nat)

/-- Results. -/
inductive Ans where
  | port (p : Nat)
  | byte (b : Byte)
  | eof
  | void
  | err
  | none
deriving DecidableEq

/-- Writing bytes at an offset of a file (operating system): bytes that are there are replaced, a gap is filled with zeros. -/
def store (f : List Byte) (off : Nat) (bs : List Byte) : List Byte :=
  if bs = [] then f else f.take off ++ List.replicate (off - f.length) 0#8 ++ bs ++ f.drop (off + bs.length)

/-- One file replaced. -/
def upd (files : Nat → Option (List Byte)) (n : Nat) (f : Option (List Byte)) : Nat → Option (List Byte) := fun m => if m = n then f else files m

/-- The library writes bytes of a stream at the offset of the stream. -/
def flushed (w : World) (n off : Nat) (bs : List Byte) : Nat → Option (List Byte) := upd w.files n ((w.files n).map fun f => store f off bs)

/-- The functions of io.c on ports of files. -/
def exec (w : World) : Cmd → Res (World × Ans)
  /- `open_output_file` (io.c:87-100): `fopen` with "w" makes the file empty -/
  | .openOut n => .ok (⟨upd w.files n (some []), w.ports ++ [.out n 0 []]⟩, .port w.ports.length)
  /- `open_input_file` (io.c:72-85) -/
  | .openIn n => match w.files n with
    | some _ => .ok (⟨w.files, w.ports ++ [.inp n 0 []]⟩, .port w.ports.length)
    | none => .ok (w, .err)
  /- `put_char_proc` (io.c:200-204); `put_string_proc` and `newline_proc` (io.c:212-227) do this several times -/
  | .put p b => match w.ports[p]? with
    | some (.out n off buf) => .ok (⟨w.files, w.ports.set p (.out n off (buf ++ [b]))⟩, .void)
    | _ => .ub
  /- `flush_output_proc` (io.c:206-210) -/
  | .flush p => match w.ports[p]? with
    | some (.out n off buf) => .ok (⟨flushed w n off buf, w.ports.set p (.out n (off + buf.length) [])⟩, .void)
    | _ => .ub
  /- `close_output_port` (io.c:144-149): `fclose` writes what is in the buffer -/
  | .closeOut p => match w.ports[p]? with
    | some (.out n off buf) => .ok (⟨flushed w n off buf, w.ports.set p .closed⟩, .void)
    | _ => .ub
  /- `read_char_proc` (io.c:180-184) -/
  | .get p => match w.ports[p]? with
    | some (.inp n off (b :: ahead)) => .ok (⟨w.files, w.ports.set p (.inp n off ahead)⟩, .byte b)
    | some (.inp n off []) => match (w.files n).bind (·[off]?) with
      | some b => .ok (⟨w.files, w.ports.set p (.inp n (off + 1) [])⟩, .byte b)
      | none => .ok (w, .eof)
    | _ => .ub
  /- `peek_char_proc` (io.c:186-191): the byte is pushed back -/
  | .peek p => match w.ports[p]? with
    | some (.inp _ _ (b :: _)) => .ok (w, .byte b)
    | some (.inp n off []) => match (w.files n).bind (·[off]?) with
      | some b => .ok (⟨w.files, w.ports.set p (.inp n (off + 1) [b])⟩, .byte b)
      | none => .ok (w, .eof)
    | _ => .ub
  /- `close_input_port` (io.c:137-142) -/
  | .closeIn p => match w.ports[p]? with
    | some (.inp _ _ _) => .ok (⟨w.files, w.ports.set p .closed⟩, .void)
    | _ => .ub
  /- `gc_port_dtor` (io.c:11-18), registered by io.c:25, 34 and run when the port is collected: an open stream is closed.  At the end (system.c:131-134) the streams still open are closed by the collector (gc-impl.c:263-276) or, with the
  Boehm collector, which runs no destructors then, by `exit` of the C library: the same command for each port -/
  | .collect p => match w.ports[p]? with
    | some (.out n off buf) => .ok (⟨flushed w n off buf, w.ports.set p .closed⟩, .none)
    | some (.inp _ _ _) => .ok (⟨w.files, w.ports.set p .closed⟩, .none)
    | _ => .ok (w, .none)
  /- the library writes some of the bytes in the buffer -/
  | .spill p k => match w.ports[p]? with
    | some (.out n off buf) => .ok (⟨flushed w n off (buf.take k), w.ports.set p (.out n (off + (buf.take k).length) (buf.drop k))⟩, .none)
    | _ => .ok (w, .none)
  /- the library reads some bytes ahead -/
  | .fill p k => match w.ports[p]? with
    | some (.inp n off ahead) => match w.files n with
      | some f => .ok (⟨w.files, w.ports.set p (.inp n (off + ((f.drop off).take k).length) (ahead ++ (f.drop off).take k))⟩, .none)
      | none => .ok (w, .none)
    | _ => .ok (w, .none)

/-- Several commands. -/
def execs (w : World) : List Cmd → Res (World × List Ans)
  | [] => .ok (w, [])
  | c :: cs => do
    let (w, a) ← exec w c
    let (w, as) ← execs w cs
    .ok (w, a :: as)

/-! ### Specification -/

/-- Specification: a port without a buffer: for writing, or for reading with the bytes that are still to come. -/
inductive SPort where
  | out (name : Nat)
  | inp (name : Nat) (rest : List Byte)
  | closed
deriving DecidableEq

/-- Specification: files and ports without buffers. -/
structure Spec where
  files : Nat → Option (List Byte)
  ports : List SPort

/-- Specification: the file an open port belongs to. -/
def SPort.uses : SPort → Option Nat
  | .out n => some n
  | .inp n _ => some n
  | .closed => none

/-- Specification: bytes go to the end of the file at once, and come from the file as it was when it was opened.  A file must not be opened for writing while another port on it is open, nor for reading while one for writing
is (`none`); closed ports must not be used. -/
def spec (s : Spec) : Cmd → Option (Spec × Ans)
  | .openOut n => if s.ports.any (fun q => decide (q.uses = some n)) then none else some (⟨upd s.files n (some []), s.ports ++ [.out n]⟩, .port s.ports.length)
  | .openIn n => match s.files n with
    | none => some (s, .err)
    | some f => if s.ports.contains (.out n) then none else some (⟨s.files, s.ports ++ [.inp n f]⟩, .port s.ports.length)
  | .put p b => match s.ports[p]? with
    | some (.out n) => some (⟨upd s.files n ((s.files n).map (· ++ [b])), s.ports⟩, .void)
    | _ => none
  | .flush p => match s.ports[p]? with
    | some (.out _) => some (s, .void)
    | _ => none
  | .closeOut p => match s.ports[p]? with
    | some (.out _) => some (⟨s.files, s.ports.set p .closed⟩, .void)
    | _ => none
  | .get p => match s.ports[p]? with
    | some (.inp n (b :: rest)) => some (⟨s.files, s.ports.set p (.inp n rest)⟩, .byte b)
    | some (.inp _ []) => some (s, .eof)
    | _ => none
  | .peek p => match s.ports[p]? with
    | some (.inp _ (b :: _)) => some (s, .byte b)
    | some (.inp _ []) => some (s, .eof)
    | _ => none
  | .closeIn p => match s.ports[p]? with
    | some (.inp _ _) => some (⟨s.files, s.ports.set p .closed⟩, .void)
    | _ => none
  | .collect p => if p < s.ports.length then some (⟨s.files, s.ports.set p .closed⟩, .none) else some (s, .none)
  | .spill _ _ | .fill _ _ => some (s, .none)

/-- Specification: several commands. -/
def specs (s : Spec) : List Cmd → Option (Spec × List Ans)
  | [] => some (s, [])
  | c :: cs => match spec s c with
    | none => none
    | some (s, a) => match specs s cs with
      | none => none
      | some (s, as) => some (s, a :: as)

/-! ### Proofs -/

/-- A port and what it stands for. -/
def PR (F G : Nat → Option (List Byte)) : Port → SPort → Prop
  | .out n off buf, .out m => n = m ∧ ∃ f, F n = some f ∧ f.length = off ∧ G n = some (f ++ buf)
  | .inp n off ahead, .inp m rest => n = m ∧ ∃ f, F n = some f ∧ rest = ahead ++ f.drop off
  | .closed, .closed => True
  | _, _ => False

structure R (w : World) (s : Spec) : Prop where
  len : w.ports.length = s.ports.length
  port : ∀ (i : Nat) (p : Port) (q : SPort), w.ports[i]? = some p → s.ports[i]? = some q → PR w.files s.files p q
  free : ∀ n, (∀ i : Nat, s.ports[i]? ≠ some (.out n)) → w.files n = s.files n
  excl : ∀ (i j n : Nat) (q : SPort), s.ports[i]? = some (.out n) → s.ports[j]? = some q → q.uses = some n → i = j

theorem PR.congr {F G F' G' : Nat → Option (List Byte)} {p : Port} {q : SPort} (h : PR F G p q) (h' : ∀ n, q.uses = some n → F' n = F n ∧ G' n = G n) : PR F' G' p q := by
  cases p <;> cases q <;> simp only [PR] at h ⊢
  · obtain ⟨rfl, f, h1, h2, h3⟩ := h
    obtain ⟨a, b⟩ := h' _ rfl
    exact ⟨rfl, f, a.trans h1, h2, b.trans h3⟩
  · obtain ⟨rfl, f, h1, h2⟩ := h
    obtain ⟨a, b⟩ := h' _ rfl
    exact ⟨rfl, f, a.trans h1, h2⟩

theorem R.at {w : World} {s : Spec} (r : R w s) {i : Nat} {q : SPort} (h : s.ports[i]? = some q) : ∃ p, w.ports[i]? = some p ∧ PR w.files s.files p q := by
  have hi : i < w.ports.length := by rw [r.len]; exact (List.getElem?_eq_some_iff.1 h).1
  exact ⟨w.ports[i], List.getElem?_eq_getElem hi, r.port i _ q (List.getElem?_eq_getElem hi) h⟩

/-- The port is open for writing, and the command works on this port and its file. -/
theorem R.onOut {w : World} {s : Spec} (r : R w s) {i n : Nat} (hi : s.ports[i]? = some (.out n)) {F G : Nat → Option (List Byte)} {p : Port} {q : SPort} (hF : ∀ m, m ≠ n → F m = w.files m) (hG : ∀ m, m ≠ n → G m = s.files m)
    (hp : PR F G p q) (hq : q = .out n ∨ (q = .closed ∧ F n = G n)) : R ⟨F, w.ports.set i p⟩ ⟨G, s.ports.set i q⟩ := by
  have hl : i < s.ports.length := (List.getElem?_eq_some_iff.1 hi).1
  have hlw : i < w.ports.length := by rw [r.len]; exact hl
  refine ⟨by simp [r.len], ?_, ?_, ?_⟩
  · intro j p' q' h1 h2
    by_cases e : i = j
    · subst e
      simp only [List.getElem?_set_self hlw, Option.some.injEq] at h1
      simp only [List.getElem?_set_self hl, Option.some.injEq] at h2
      subst h1 h2
      exact hp
    · simp only [List.getElem?_set_ne e] at h1 h2
      refine (r.port j p' q' h1 h2).congr fun m hm => ?_
      have : m ≠ n := fun em => e (r.excl i j n q' hi h2 (em ▸ hm))
      exact ⟨hF m this, hG m this⟩
  · intro m hm
    by_cases e : m = n
    · subst e
      rcases hq with rfl | ⟨_, h⟩
      · exact absurd (by simp [hl]) (hm i)
      · exact h
    · show F m = G m
      rw [hF m e, hG m e]
      refine r.free m fun j hj => ?_
      have e' : i ≠ j := by
        rintro rfl
        rw [hi] at hj
        cases hj
        exact e rfl
      exact hm j (by simp only [List.getElem?_set_ne e']; exact hj)
  · intro j k m q' h1 h2 h3
    have old : ∀ {k : Nat} {q' : SPort}, (s.ports.set i q)[k]? = some q' → q'.uses = some m → ∃ q0, s.ports[k]? = some q0 ∧ q0.uses = some m ∧ (q' = .out m → q0 = .out m) := by
      intro k q' h hu
      by_cases e : i = k
      · subst e
        simp only [List.getElem?_set_self hl, Option.some.injEq] at h
        subst h
        rcases hq with rfl | ⟨rfl, _⟩
        · cases hu
          exact ⟨_, hi, rfl, fun h => h⟩
        · cases hu
      · simp only [List.getElem?_set_ne e] at h
        exact ⟨q', h, hu, fun h => h⟩
    obtain ⟨a, a1, _, a3⟩ := old h1 rfl
    obtain ⟨b, b1, b2, _⟩ := old h2 h3
    rw [a3 rfl] at a1
    exact r.excl j k m b a1 b1 b2

/-- The port is open for reading. -/
theorem R.onIn {w : World} {s : Spec} (r : R w s) {i n : Nat} {rest : List Byte} (hi : s.ports[i]? = some (.inp n rest)) {p : Port} {q : SPort} (hp : PR w.files s.files p q) (hq : (∃ t, q = .inp n t) ∨ q = .closed) :
    R ⟨w.files, w.ports.set i p⟩ ⟨s.files, s.ports.set i q⟩ := by
  have hl : i < s.ports.length := (List.getElem?_eq_some_iff.1 hi).1
  have hlw : i < w.ports.length := by rw [r.len]; exact hl
  refine ⟨by simp [r.len], ?_, ?_, ?_⟩
  · intro j p' q' h1 h2
    by_cases e : i = j
    · subst e
      simp only [List.getElem?_set_self hlw, Option.some.injEq] at h1
      simp only [List.getElem?_set_self hl, Option.some.injEq] at h2
      subst h1 h2
      exact hp
    · simp only [List.getElem?_set_ne e] at h1 h2
      exact r.port j p' q' h1 h2
  · intro m hm
    refine r.free m fun j hj => ?_
    have e' : i ≠ j := by
      rintro rfl
      rw [hi] at hj
      cases hj
    exact hm j (by simp only [List.getElem?_set_ne e']; exact hj)
  · intro j k m q' h1 h2 h3
    have e1 : i ≠ j := by
      rintro rfl
      simp only [List.getElem?_set_self hl, Option.some.injEq] at h1
      subst h1
      rcases hq with ⟨t, h⟩ | h <;> cases h
    simp only [List.getElem?_set_ne e1] at h1
    by_cases e : i = k
    · subst e
      simp only [List.getElem?_set_self hl, Option.some.injEq] at h2
      subst h2
      rcases hq with ⟨t, rfl⟩ | rfl
      · exact r.excl j i m _ h1 hi h3
      · cases h3
    · simp only [List.getElem?_set_ne e] at h2
      exact r.excl j k m q' h1 h2 h3

/-- A new port. -/
theorem R.new {w : World} {s : Spec} (r : R w s) {F G : Nat → Option (List Byte)} {p : Port} {q : SPort} (hp : PR F G p q)
    (hc : (∃ n f, q = .inp n f ∧ (∀ i : Nat, s.ports[i]? ≠ some (.out n)) ∧ F = w.files ∧ G = s.files) ∨
      ∃ n, q = .out n ∧ (∀ (i : Nat) (q : SPort), s.ports[i]? = some q → q.uses ≠ some n) ∧ (∀ m, m ≠ n → F m = w.files m) ∧ ∀ m, m ≠ n → G m = s.files m) :
    R ⟨F, w.ports ++ [p]⟩ ⟨G, s.ports ++ [q]⟩ := by
  have get : ∀ {α : Type} {l : List α} {x y : α} {j : Nat}, (l ++ [x])[j]? = some y → (l[j]? = some y ∧ j < l.length) ∨ (j = l.length ∧ y = x) := by
    intro α l x y j h
    rcases Nat.lt_trichotomy j l.length with h' | h' | h'
    · rw [List.getElem?_append_left h'] at h
      exact .inl ⟨h, h'⟩
    · subst h'
      simp at h
      exact .inr ⟨rfl, h.symm⟩
    · rw [List.getElem?_eq_none (by simp; omega)] at h
      cases h
  refine ⟨by simp [r.len], ?_, ?_, ?_⟩
  · intro j p' q' h1 h2
    rcases get h1 with ⟨h1, l1⟩ | ⟨rfl, rfl⟩
    · rcases get h2 with ⟨h2, _⟩ | ⟨rfl, rfl⟩
      · refine (r.port j p' q' h1 h2).congr fun m hm => ?_
        rcases hc with ⟨_, _, _, _, rfl, rfl⟩ | ⟨n, _, hn, hF, hG⟩
        · exact ⟨rfl, rfl⟩
        · have : m ≠ n := fun e => hn j q' h2 (e ▸ hm)
          exact ⟨hF m this, hG m this⟩
      · rw [r.len] at l1
        exact absurd l1 (Nat.lt_irrefl _)
    · rcases get h2 with ⟨_, l2⟩ | ⟨_, rfl⟩
      · rw [r.len] at l2
        exact absurd l2 (Nat.lt_irrefl _)
      · exact hp
  · intro m hm
    have hm' : ∀ i : Nat, s.ports[i]? ≠ some (.out m) := fun i hi => hm i (by
      show (s.ports ++ [q])[i]? = _
      rw [List.getElem?_append_left (List.getElem?_eq_some_iff.1 hi).1]
      exact hi)
    rcases hc with ⟨_, _, _, _, rfl, rfl⟩ | ⟨n, rfl, hn, hF, hG⟩
    · exact r.free m hm'
    · have : m ≠ n := by
        rintro rfl
        exact hm s.ports.length (by simp)
      show F m = G m
      rw [hF m this, hG m this]
      exact r.free m hm'
  · intro j k m q' h1 h2 h3
    have g1 := get h1
    have g2 := get h2
    clear h1 h2
    rcases g1 with ⟨h1, _⟩ | ⟨rfl, e1⟩
    · rcases g2 with ⟨h2, _⟩ | ⟨rfl, rfl⟩
      · exact r.excl j k m q' h1 h2 h3
      · rcases hc with ⟨n, f, rfl, hn, _⟩ | ⟨n, rfl, hn, _⟩
        · cases h3
          exact absurd h1 (hn j)
        · cases h3
          exact absurd rfl (hn j _ h1)
    · rcases g2 with ⟨h2, _⟩ | ⟨rfl, _⟩
      · rcases hc with ⟨n, f, rfl, hn, _⟩ | ⟨n, rfl, hn, _⟩
        · cases e1
        · cases e1
          exact absurd h3 (hn k q' h2)
      · rfl

theorem store_end (f bs : List Byte) : store f f.length bs = f ++ bs := by
  unfold store
  split
  · rename_i h; simp [h]
  · simp

theorem flushed_at {w : World} {n : Nat} {f : List Byte} (h : w.files n = some f) (bs : List Byte) : flushed w n f.length bs n = some (f ++ bs) := by simp [flushed, upd, h, store_end]

theorem flushed_ne {w : World} {n m off : Nat} {bs : List Byte} (h : m ≠ n) : flushed w n off bs m = w.files m := by simp [flushed, upd, h]

theorem set_same {α : Type} {l : List α} {i : Nat} {x : α} (h : l[i]? = some x) : l.set i x = l := by
  apply List.ext_getElem?
  intro j
  by_cases e : i = j
  · subst e
    rw [List.getElem?_set_self (List.getElem?_eq_some_iff.1 h).1, h]
  · rw [List.getElem?_set_ne e]

theorem R.sim {w : World} {s s' : Spec} {a : Ans} {c : Cmd} (r : R w s) (h : spec s c = some (s', a)) : ∃ w', exec w c = .ok (w', a) ∧ R w' s' := by
  cases c with
  | openOut n =>
    simp only [spec] at h
    split at h
    · cases h
    · rename_i hn
      cases h
      rw [← r.len]
      refine ⟨_, rfl, r.new (q := .out n) ⟨rfl, [], by simp [upd], rfl, by simp [upd]⟩ (.inr ⟨n, rfl, fun i q hi hu => hn ?_, fun m hm => by simp [upd, hm], fun m hm => by simp [upd, hm]⟩)⟩
      exact List.any_eq_true.2 ⟨q, List.mem_of_getElem? hi, by simp [hu]⟩
  | openIn n =>
    simp only [spec] at h
    split at h
    · rename_i hf
      cases h
      have : w.files n = none := by
        rw [r.free n, hf]
        intro i hi
        obtain ⟨p, _, hp⟩ := r.at hi
        cases p <;> simp only [PR] at hp
        obtain ⟨rfl, f, _, _, h⟩ := hp
        rw [hf] at h
        cases h
      exact ⟨w, by simp [exec, this], r⟩
    · rename_i f hf
      split at h
      · cases h
      · rename_i hn
        cases h
        have hno : ∀ i : Nat, s.ports[i]? ≠ some (.out n) := fun i hi => hn (List.contains_iff_mem.2 (List.mem_of_getElem? hi))
        have hw : w.files n = some f := (r.free n hno).trans hf
        exact ⟨⟨w.files, w.ports ++ [.inp n 0 []]⟩, by simp [exec, hw, r.len], r.new (F := w.files) (G := s.files) (p := .inp n 0 []) (q := .inp n f) ⟨rfl, f, hw, by simp⟩ (.inl ⟨n, f, rfl, hno, rfl, rfl⟩)⟩
  | put p b =>
    simp only [spec] at h
    split at h
    · rename_i n hp
      cases h
      obtain ⟨q, hq, hr⟩ := r.at hp
      cases q <;> simp only [PR] at hr
      rename_i k off buf
      obtain ⟨rfl, f, h1, h2, h3⟩ := hr
      refine ⟨⟨w.files, w.ports.set p (.out k off (buf ++ [b]))⟩, by simp [exec, hq], ?_⟩
      have := r.onOut (q := .out k) hp (F := w.files) (G := upd s.files k ((s.files k).map (· ++ [b]))) (p := .out k off (buf ++ [b])) (fun _ _ => rfl) (fun m hm => by simp [upd, hm]) ⟨rfl, f, h1, h2, by simp [upd, h3]⟩ (.inl rfl)
      rwa [set_same hp] at this
    · cases h
  | flush p =>
    simp only [spec] at h
    split at h
    · rename_i n hp
      cases h
      obtain ⟨q, hq, hr⟩ := r.at hp
      cases q <;> simp only [PR] at hr
      rename_i buf
      obtain ⟨rfl, f, h1, rfl, h3⟩ := hr
      refine ⟨_, by simp [exec, hq]; rfl, ?_⟩
      have := r.onOut (q := .out _) hp (F := flushed w _ f.length buf) (G := s.files) (p := .out _ (f.length + buf.length) []) (fun _ hm => flushed_ne hm) (fun _ _ => rfl) ⟨rfl, f ++ buf, flushed_at h1 buf, by simp, by simpa using h3⟩ (.inl rfl)
      rwa [set_same hp] at this
    · cases h
  | closeOut p =>
    simp only [spec] at h
    split at h
    · rename_i n hp
      cases h
      obtain ⟨q, hq, hr⟩ := r.at hp
      cases q <;> simp only [PR] at hr
      rename_i buf
      obtain ⟨rfl, f, h1, rfl, h3⟩ := hr
      refine ⟨_, by simp [exec, hq]; rfl, ?_⟩
      exact r.onOut (q := .closed) hp (p := .closed) (fun _ hm => flushed_ne hm) (fun _ _ => rfl) trivial (.inr ⟨rfl, by rw [flushed_at h1 buf, h3]⟩)
    · cases h
  | get p =>
    simp only [spec] at h
    split at h
    · rename_i n b rest hp
      cases h
      obtain ⟨q, hq, hr⟩ := r.at hp
      cases q <;> simp only [PR] at hr
      rename_i m off ahead
      obtain ⟨rfl, f, h1, h2⟩ := hr
      cases ahead with
      | nil =>
        have hb := congrArg List.head? h2
        simp only [List.head?_cons, List.nil_append, List.head?_drop] at hb
        have := congrArg List.tail h2
        exact ⟨⟨w.files, w.ports.set p (.inp m (off + 1) [])⟩, by simp [exec, hq, h1, ← hb], r.onIn (p := .inp m (off + 1) []) (q := .inp m rest) hp ⟨rfl, f, h1, by simpa [List.tail_drop] using this⟩ (.inl ⟨_, rfl⟩)⟩
      | cons c ahead =>
        simp only [List.cons_append, List.cons.injEq] at h2
        obtain ⟨rfl, h2⟩ := h2
        exact ⟨⟨w.files, w.ports.set p (.inp m off ahead)⟩, by simp [exec, hq], r.onIn (p := .inp m off ahead) (q := .inp m rest) hp ⟨rfl, f, h1, h2⟩ (.inl ⟨_, rfl⟩)⟩
    · rename_i n hp
      cases h
      obtain ⟨q, hq, hr⟩ := r.at hp
      cases q <;> simp only [PR] at hr
      obtain ⟨rfl, f, h1, h2⟩ := hr
      obtain ⟨rfl, h4⟩ := List.append_eq_nil_iff.1 h2.symm
      refine ⟨w, ?_, r⟩
      have : f[_]? = none := List.getElem?_eq_none (List.drop_eq_nil_iff.1 h4)
      simp [exec, hq, h1, this]
    · cases h
  | peek p =>
    simp only [spec] at h
    split at h
    · rename_i n b rest hp
      cases h
      obtain ⟨q, hq, hr⟩ := r.at hp
      cases q <;> simp only [PR] at hr
      rename_i off ahead
      obtain ⟨rfl, f, h1, h2⟩ := hr
      cases ahead with
      | nil =>
        have hb := congrArg List.head? h2
        simp only [List.head?_cons, List.nil_append, List.head?_drop] at hb
        refine ⟨_, by simp [exec, hq, h1, ← hb]; rfl, ?_⟩
        have := congrArg List.tail h2
        have := r.onIn (q := .inp _ (b :: rest)) (p := .inp _ (off + 1) [b]) hp ⟨rfl, f, h1, by simpa [List.tail_drop] using this⟩ (.inl ⟨_, rfl⟩)
        rwa [set_same hp] at this
      | cons c ahead =>
        simp only [List.cons_append, List.cons.injEq] at h2
        obtain ⟨rfl, h2⟩ := h2
        exact ⟨w, by simp [exec, hq], r⟩
    · rename_i n hp
      cases h
      obtain ⟨q, hq, hr⟩ := r.at hp
      cases q <;> simp only [PR] at hr
      obtain ⟨rfl, f, h1, h2⟩ := hr
      obtain ⟨rfl, h4⟩ := List.append_eq_nil_iff.1 h2.symm
      refine ⟨w, ?_, r⟩
      have : f[_]? = none := List.getElem?_eq_none (List.drop_eq_nil_iff.1 h4)
      simp [exec, hq, h1, this]
    · cases h
  | closeIn p =>
    simp only [spec] at h
    split at h
    · rename_i n rest hp
      cases h
      obtain ⟨q, hq, hr⟩ := r.at hp
      cases q <;> simp only [PR] at hr
      exact ⟨⟨w.files, w.ports.set p .closed⟩, by simp [exec, hq], r.onIn (q := .closed) (p := .closed) hp trivial (.inr rfl)⟩
    · cases h
  | collect p =>
    simp only [spec] at h
    split at h
    · rename_i hlt
      cases h
      obtain ⟨q, hq, hr⟩ := r.at (List.getElem?_eq_getElem hlt)
      have hp := List.getElem?_eq_getElem hlt
      generalize s.ports[p] = sp at hp hr
      cases q <;> cases sp <;> simp only [PR] at hr
      · rename_i buf n
        obtain ⟨rfl, f, h1, rfl, h3⟩ := hr
        exact ⟨_, by simp [exec, hq]; rfl, r.onOut (q := .closed) hp (p := .closed) (fun _ hm => flushed_ne hm) (fun _ _ => rfl) trivial (.inr ⟨rfl, by rw [flushed_at h1 buf, h3]⟩)⟩
      · exact ⟨⟨w.files, w.ports.set p .closed⟩, by simp [exec, hq], r.onIn (q := .closed) (p := .closed) hp trivial (.inr rfl)⟩
      · exact ⟨w, by simp [exec, hq], by rw [set_same hp]; exact r⟩
    · rename_i hlt
      cases h
      have : w.ports[p]? = none := List.getElem?_eq_none (by rw [r.len]; omega)
      exact ⟨w, by simp [exec, this], r⟩
  | spill p k =>
    cases h
    cases hq : w.ports[p]? with
    | none => exact ⟨w, by simp [exec, hq], r⟩
    | some q =>
      cases q with
      | closed => exact ⟨w, by simp [exec, hq], r⟩
      | inp _ _ _ => exact ⟨w, by simp [exec, hq], r⟩
      | out n off buf =>
        have hlt : p < s.ports.length := by rw [← r.len]; exact (List.getElem?_eq_some_iff.1 hq).1
        have hp := List.getElem?_eq_getElem hlt
        have hr := r.port p _ _ hq hp
        generalize s.ports[p] = sp at hp hr
        cases sp <;> simp only [PR] at hr
        obtain ⟨rfl, f, h1, rfl, h3⟩ := hr
        refine ⟨_, by simp only [exec, hq]; rfl, ?_⟩
        have := r.onOut (q := .out _) hp (F := flushed w _ f.length (buf.take k)) (G := s.files) (p := .out _ (f.length + (buf.take k).length) (buf.drop k)) (fun _ hm => flushed_ne hm) (fun _ _ => rfl)
          ⟨rfl, f ++ buf.take k, flushed_at h1 _, by simp, by rw [h3, List.append_assoc, List.take_append_drop]⟩ (.inl rfl)
        rwa [set_same hp] at this
  | fill p k =>
    cases h
    cases hq : w.ports[p]? with
    | none => exact ⟨w, by simp [exec, hq], r⟩
    | some q =>
      cases q with
      | closed => exact ⟨w, by simp [exec, hq], r⟩
      | out _ _ _ => exact ⟨w, by simp [exec, hq], r⟩
      | inp n off ahead =>
        have hlt : p < s.ports.length := by rw [← r.len]; exact (List.getElem?_eq_some_iff.1 hq).1
        have hp := List.getElem?_eq_getElem hlt
        have hr := r.port p _ _ hq hp
        generalize s.ports[p] = sp at hp hr
        cases sp <;> simp only [PR] at hr
        rename_i n' rest
        obtain ⟨rfl, f, h1, rfl⟩ := hr
        refine ⟨_, by simp only [exec, hq, h1]; rfl, ?_⟩
        have := r.onIn (q := .inp n (ahead ++ f.drop off)) (p := .inp n (off + ((f.drop off).take k).length) (ahead ++ (f.drop off).take k)) hp ⟨rfl, f, h1, by
          rw [List.append_assoc, ← List.drop_drop]
          congr 1
          rw [List.length_take]
          rcases Nat.le_total k (f.drop off).length with h | h
          · rw [Nat.min_eq_left h, List.take_append_drop]
          · rw [Nat.min_eq_right h, List.take_of_length_le h, List.drop_length, List.append_nil]⟩ (.inl ⟨_, rfl⟩)
        rwa [set_same hp] at this

theorem R.init (files : Nat → Option (List Byte)) : R ⟨files, []⟩ ⟨files, []⟩ := ⟨rfl, by simp, fun _ _ => rfl, by simp⟩

theorem R.run : ∀ (cs : List Cmd) {w : World} {s0 s : Spec} {as : List Ans}, R w s0 → specs s0 cs = some (s, as) → ∃ w', execs w cs = .ok (w', as) ∧ R w' s := by
  intro cs
  induction cs with
  | nil => intro w s0 s as r h; cases h; exact ⟨w, rfl, r⟩
  | cons c cs ih =>
    intro w s0 s as r h
    simp only [specs] at h
    split at h
    · cases h
    · rename_i s1 a h1
      split at h
      · cases h
      · rename_i s2 as2 h2
        cases h
        obtain ⟨w1, e1, r1⟩ := r.sim h1
        obtain ⟨w2, e2, r2⟩ := ih r1 h2
        refine ⟨w2, ?_, r2⟩
        rw [execs, e1]
        simp only [Res.ok_bind, e2]

/-- C113 (partial).  For programs that do not open a file for writing while another port on it is open, nor for reading while a port for writing is, and do not use closed ports: whatever the C library does with its buffers, and
whenever ports are collected, every command has the result it has without buffers.  A file that no open port writes holds all bytes written to it, in order, from the beginning; a file that is being written
holds a part of them from the beginning.

Missing: programs that do otherwise (refuted below; closed ports: C85). -/
theorem C113_partial (cs : List Cmd) (files : Nat → Option (List Byte)) (s : Spec) (as : List Ans) (h : specs ⟨files, []⟩ cs = some (s, as)) :
    ∃ w, execs ⟨files, []⟩ cs = .ok (w, as) ∧ (∀ n, (∀ q ∈ s.ports, q ≠ .out n) → w.files n = s.files n) ∧ ∀ n, SPort.out n ∈ s.ports → ∃ f t, w.files n = some f ∧ s.files n = some (f ++ t) := by
  obtain ⟨w, h1, r⟩ := R.run cs (R.init files) h
  refine ⟨w, h1, fun n hn => r.free n fun i hi => hn _ (List.mem_of_getElem? hi) rfl, fun n hn => ?_⟩
  obtain ⟨i, hi⟩ := List.getElem?_of_mem hn
  obtain ⟨p, _, hp⟩ := r.at hi
  cases p <;> simp only [PR] at hp
  obtain ⟨rfl, f, h1, _, h3⟩ := hp
  exact ⟨f, _, h1, h3⟩

/-- C113, in other words: when all ports are closed or collected, the files are what they would be without buffers. -/
theorem C113_closed_partial (cs : List Cmd) (files : Nat → Option (List Byte)) (s : Spec) (as : List Ans) (h : specs ⟨files, []⟩ cs = some (s, as)) (hc : ∀ q ∈ s.ports, q = .closed) :
    ∃ w, execs ⟨files, []⟩ cs = .ok (w, as) ∧ w.files = s.files := by
  obtain ⟨w, h1, h2, _⟩ := C113_partial cs files s as h
  exact ⟨w, h1, funext fun n => h2 n fun q hq e => by rw [hc q hq] at e; cases e⟩

/-- C113 (partial).  When a port has just been flushed, its file holds all bytes written to it. -/
theorem C113_flush_partial (cs : List Cmd) (files : Nat → Option (List Byte)) (s : Spec) (as : List Ans) (h : specs ⟨files, []⟩ cs = some (s, as)) (p n : Nat) (hp : s.ports[p]? = some (.out n)) :
    ∃ w w', execs ⟨files, []⟩ cs = .ok (w, as) ∧ exec w (.flush p) = .ok (w', .void) ∧ w'.files n = s.files n ∧ ∀ m, m ≠ n → w'.files m = w.files m := by
  obtain ⟨w, h1, r⟩ := R.run cs (R.init files) h
  obtain ⟨q, hq, hr⟩ := r.at hp
  cases q <;> simp only [PR] at hr
  rename_i k off buf
  obtain ⟨rfl, f, g1, rfl, g3⟩ := hr
  exact ⟨w, ⟨flushed w k f.length buf, w.ports.set p (.out k (f.length + buf.length) [])⟩, h1, by simp [exec, hq], by rw [g3]; exact flushed_at g1 buf, fun m hm => flushed_ne hm⟩

/-- Two bytes are written (one of them by the library before the file is closed) and read back; a file that does not exist cannot be read. -/
example : ∃ s, specs ⟨fun _ => none, []⟩ [.openOut 7, .put 0 1#8, .spill 0 1, .put 0 2#8, .closeOut 0, .openIn 7, .peek 1, .get 1, .fill 1 5, .get 1, .get 1, .openIn 8] =
    some (s, [.port 0, .void, .none, .void, .void, .port 1, .byte 1#8, .byte 1#8, .none, .byte 2#8, .eof, .err]) ∧ s.files 7 = some [1#8, 2#8] := ⟨_, rfl, rfl⟩

/-! ### Where it goes wrong -/

/-- C113 (refuted).  A byte that has been written is not there for a reader as long as the port for writing is open and not flushed. -/
theorem C113_negated_unflushed : ∃ w, execs ⟨fun _ => none, []⟩ [.openOut 7, .put 0 1#8, .openIn 7, .get 1] = .ok (w, [.port 0, .void, .port 1, .eof]) := ⟨_, rfl⟩

/-- C113 (refuted).  Two ports for writing on one file overwrite each other: of two bytes one is left, that of the port closed last. -/
theorem C113_negated_two : ∃ w, execs ⟨fun _ => none, []⟩ [.openOut 7, .openOut 7, .put 0 1#8, .put 1 2#8, .closeOut 1, .closeOut 0] = .ok (w, [.port 0, .port 1, .void, .void, .void, .void]) ∧ w.files 7 = some [1#8] := ⟨_, rfl, rfl⟩

/-- C113 (refuted).  Opening a file for writing takes away what a reader has not read yet, unless the library has read it ahead. -/
theorem C113_negated_truncated : ∃ w w', execs ⟨fun _ => some [1#8, 2#8], []⟩ [.openIn 7, .get 0, .openOut 7, .get 0] = .ok (w, [.port 0, .byte 1#8, .port 1, .eof]) ∧
    execs ⟨fun _ => some [1#8, 2#8], []⟩ [.openIn 7, .fill 0 2, .get 0, .openOut 7, .get 0] = .ok (w', [.port 0, .none, .byte 1#8, .port 1, .byte 2#8]) := ⟨_, _, rfl, rfl⟩

end Minim.FPort
