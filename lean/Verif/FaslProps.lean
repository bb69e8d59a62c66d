import Verif.FaslLemmas

/-!
# FASL properties (C01–C04)

Specification predicates: `serialisable` (what `fasl-write` accepts and the C representation can hold),
`textFree`, `CutAt` and `hasOther` of `Verif.FaslLemmas`; none of them mentions the reader.
-/

namespace Minim.Fasl

/-! ## C01 -/

/-- C01: every 64-bit word is read back from its encoding, and exactly its bytes are consumed. -/
theorem C01_uptr_round_trip (w : Word) (rest : List Byte) :
    readUptr (writeUptr w ++ rest) = .ok (w, rest) := readUptr_write w rest

example : writeUptr 300#64 = [0x59#8, 0x04#8] := by
  simp [writeUptr]

/-! ## C02 -/

/-- C02: every serialisable object is written, and read back unchanged whatever follows it in the stream. -/
theorem C02_object_round_trip (d : Datum) (h : serialisable d = true) :
    ∃ b, writeFasl d = .ok b ∧ ∀ rest, readFasl (b ++ rest) = .ok (d, rest) := by
  obtain ⟨b, hb, hr⟩ := (good d h).1
  refine ⟨b, hb, fun rest => hr.2 _ rest ?_⟩
  simp only [List.length_append]; omega

/-- a record with a symbol, a string, an improper list and nested vectors inside -/
def sampleDatum : Datum :=
  .record (.record .baseRtd [.sym [112#8], .fls])
    [.pair (.fix (-1)) (.pair (.str [97#8, 98#8]) (.chr 0#8)), .vec [.emptyVec, .vec [], .pair .tru .null]]

example : serialisable sampleDatum = true := by decide

/-- Reading objects one after the other, as successive `fasl-read` calls do. (Specification.) -/
def readAll : Nat → List Byte → Res (List Datum × List Byte)
  | 0, s => .ok ([], s)
  | n + 1, s => do
    let (d, s) ← readFasl s
    let (ds, s) ← readAll n s
    pure (d :: ds, s)

/-- Writing objects one after the other. (Specification.) -/
def writeAll : List Datum → Res (List Byte)
  | [] => .ok []
  | d :: ds => do
    let b ← writeFasl d
    let bs ← writeAll ds
    pure (b ++ bs)

/-- C02, sequences: objects written one after the other are read back in order. -/
theorem C02_sequence_round_trip (ds : List Datum) (h : ∀ d ∈ ds, serialisable d = true) :
    ∃ b, writeAll ds = .ok b ∧ ∀ rest, readAll ds.length (b ++ rest) = .ok (ds, rest) := by
  induction ds with
  | nil => exact ⟨[], rfl, fun _ => rfl⟩
  | cons d ds ih =>
    obtain ⟨b, hb, hr⟩ := C02_object_round_trip d (h d (by simp))
    obtain ⟨bs, hbs, hrs⟩ := ih (fun d hd => h d (by simp [hd]))
    refine ⟨b ++ bs, by simp [writeAll, hb, hbs], fun rest => ?_⟩
    simp [readAll, hr, hrs]

example : ∀ d ∈ [sampleDatum, .null, .fix 5], serialisable d = true := by decide

/-- C02, acceptance: `fasl-write` fails exactly on objects with an unserialisable object inside, never with undefined
behaviour. -/
theorem C02_write_outcome (d : Datum) :
    (writeFasl d = .err ↔ hasOther d = true) ∧ ((∃ b, writeFasl d = .ok b) ↔ hasOther d = false) := by
  have h := write_accepts false d
  unfold writeFasl
  cases ho : hasOther d with
  | true => simp [h.1 ho]
  | false => obtain ⟨b, hb⟩ := h.2 ho; simp [hb]

example : hasOther (.vec [.null, .pair (.other 3) .null]) = true := by decide

/-- `fasl-read` always returns: the model's reader never runs out of fuel, on any byte sequence. -/
theorem readFasl_ne_oof (s : List Byte) : readFasl s ≠ .oof := (read_ne_oof _).1 s (by omega)

/-- The fuel chosen by `readFasl` is irrelevant: any larger amount gives the same outcome. -/
theorem readFasl_fuel (s : List Byte) (fuel : Nat) (h : 2 * s.length + 3 ≤ fuel) : readFaslAux fuel s = readFasl s :=
  (read_mono h s).eq (readFasl_ne_oof s)

/-- Reading consumes at least one byte and never more than there are. -/
theorem readFasl_consumes (s : List Byte) (d : Datum) (s' : List Byte) (h : readFasl s = .ok (d, s')) :
    s'.length < s.length := (read_length _).1 s d s' h

example : ∃ s, readFasl (s ++ [77#8]) = .ok (sampleDatum, [77#8]) :=
  let ⟨b, _, h⟩ := C02_object_round_trip sampleDatum (by decide); ⟨b, h _⟩

/-! ## C03 -/

/-- C03: encodings are prefix-free and injective. -/
theorem C03_uniquely_decodable (d1 d2 : Datum) (h1 : serialisable d1 = true) (h2 : serialisable d2 = true)
    (b1 b2 r1 r2 : List Byte) (w1 : writeFasl d1 = .ok b1) (w2 : writeFasl d2 = .ok b2)
    (e : b1 ++ r1 = b2 ++ r2) : d1 = d2 ∧ b1 = b2 ∧ r1 = r2 := by
  obtain ⟨c1, hc1, hr1⟩ := C02_object_round_trip d1 h1
  obtain ⟨c2, hc2, hr2⟩ := C02_object_round_trip d2 h2
  rw [w1] at hc1; cases hc1
  rw [w2] at hc2; cases hc2
  have h := hr1 r1
  rw [e, hr2 r2] at h
  cases h
  exact ⟨rfl, by simpa using e, rfl⟩

example : ∃ b, writeFasl sampleDatum = .ok b ∧ b ++ [1#8] = b ++ [1#8] :=
  let ⟨b, h, _⟩ := C02_object_round_trip sampleDatum (by decide); ⟨b, h, rfl⟩

/-! ## C04 -/

/-- C04 fails (1): a file holding a fixnum cut after its type byte makes the reader execute an undefined shift. -/
theorem C04_negated_ub : ∃ d b p q, serialisable d = true ∧ writeFasl d = .ok b ∧ b = p ++ q ∧ q ≠ [] ∧
    readFasl p = .ub := by
  refine ⟨.fix 5, [tFIXNUM, 10#8], [tFIXNUM], [10#8], by decide, ?_, rfl, by simp, ?_⟩
  · simp [writeFasl, writeFaslAux, writeUptr]
  · rw [readFasl, readFaslAux_cons, readBody_fix, readUptr, readUptrLoop_nil]; rfl

/-- C04 fails (2): a file holding the string "a" cut in front of its character is read as a string without any error. -/
theorem C04_negated_silent : ∃ d b p q d', serialisable d = true ∧ writeFasl d = .ok b ∧ b = p ++ q ∧ q ≠ [] ∧
    d' ≠ d ∧ readFasl p = .ok (d', []) := by
  refine ⟨.str [97#8], [tSTRING, 2#8, 97#8], [tSTRING, 2#8], [97#8], .str [255#8], by decide, ?_, rfl, by simp, by simp, ?_⟩
  · simp [writeFasl, writeFaslAux, writeUptr, writeLen, cstr]
  · have h : readLen [2#8] = .ok (1, []) := readLen_write (n := 1) (by decide) [] |> fun h => by
      simpa [writeLen, writeUptr] using h
    rw [readFasl, readFaslAux_cons]
    simp [readBody, tSTRING, tSYMBOL, tNULL, tTRUE, tFALSE, tEOF, tVOID, h, readBytes, cstr]

/-- C04 (missing: cuts inside a length or fixnum field are undefined behaviour, cuts inside text are silent): a stream
that ends in front of the type byte of an object, at any depth of any serialisable object, is an error. -/
theorem C04_object_boundary_partial (d : Datum) (h : serialisable d = true) (p : List Byte) (hc : CutAt d p) :
    readFasl p = .err := cutAt_err hc h _ (Nat.le_refl _)

/-- `CutAt` really describes truncations: proper prefixes of the encoding. -/
theorem C04_cutAt_is_truncation (d : Datum) (h : serialisable d = true) (p : List Byte) (hc : CutAt d p) :
    ∃ q, q ≠ [] ∧ writeFasl d = .ok (p ++ q) := cutAt_prefix hc h

example : CutAt (.vec [.null, .pair .tru .fls]) (header (.vec [.null, .pair .tru .fls]) ++
    ([tNULL] ++ (header (.pair .tru .fls) ++ ([tTRUE] ++ [])))) := by
  refine .inside (pre := [.null]) (e := .pair .tru .fls) (post := []) rfl (by simp [writeFaslList, writeFaslAux]) ?_
  exact .inside (pre := [.tru]) (e := .fls) (post := []) rfl (by simp [writeFaslList, writeFaslAux]) (.start _)

/-- C04 (missing: as above): an object without symbols, strings and characters never comes out of a truncated
encoding; whatever the cut, `fasl-read` does not return an object. -/
theorem C04_never_silent_partial (d : Datum) (h : serialisable d = true) (ht : textFree d = true) (p q : List Byte)
    (hq : q ≠ []) (hw : writeFasl d = .ok (p ++ q)) (d' : Datum) (s' : List Byte) : readFasl p ≠ .ok (d', s') := by
  obtain ⟨b, hb, _, hc⟩ := (goodCut d h ht).1
  unfold writeFasl at hw
  rw [hw] at hb; cases hb
  exact hc p q rfl hq _ _

example : serialisable (.vec [.fix 300, .pair .null .tru]) = true ∧ textFree (.vec [.fix 300, .pair .null .tru]) = true :=
  by decide

end Minim.Fasl
