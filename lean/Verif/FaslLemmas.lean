import Verif.Fasl

/-! Helper lemmas for `Verif.FaslProps`. -/

namespace Minim.Fasl

@[simp] theorem fgetc_cons (b : Byte) (s : List Byte) : fgetc (b :: s) = (b, s) := rfl
@[simp] theorem fgetc_nil : fgetc [] = (255#8, []) := rfl

theorem readFaslAux_cons (fuel : Nat) (t : Byte) (s : List Byte) :
    readFaslAux (fuel + 1) (t :: s) = readBody (readFaslAux fuel) (readFaslN fuel) t s := by
  rw [readFaslAux]; rfl

/-- the byte emitted for a block -/
def blockByte (u : Word) (more : Bool) : Byte :=
  (((u &&& 0x7F#64).setWidth 8 : Byte) <<< 1) ||| (if more then 1#8 else 0#8)

theorem writeUptr_eq (u : Word) :
    writeUptr u = blockByte u (decide (u >>> 7 ≠ 0#64)) ::
      (if u >>> 7 ≠ 0#64 then writeUptr (u >>> 7) else []) := by
  rw [writeUptr]
  unfold blockByte
  by_cases h : u >>> 7 = 0#64
  · simp [h]
  · simp [h]

theorem blockByte_and_one (u : Word) (m : Bool) : blockByte u m &&& 1#8 ≠ 0#8 ↔ m = true := by
  unfold blockByte
  have h : ∀ (x : Byte), ((x <<< 1) &&& 1#8) = 0#8 := by
    intro x; apply BitVec.eq_of_getLsbD_eq; intro i hi
    match i with
    | 0 => simp
    | i + 1 => simp
  have h2 : ∀ (x y : Byte), ((x <<< 1) ||| y) &&& 1#8 = y &&& 1#8 := by
    intro x y
    have := h x
    apply BitVec.eq_of_getLsbD_eq; intro i hi
    have h3 := congrArg (fun z => z.getLsbD i) this
    simp only [BitVec.getLsbD_and, BitVec.getLsbD_or] at h3 ⊢
    cases hx : (x <<< 1).getLsbD i <;> simp_all
  rw [h2]
  cases m <;> decide

theorem getLsbD_7F (j : Nat) : (0x7F#64).getLsbD j = decide (j < 7) := by
  have : (0x7F#64 : Word) = BitVec.ofNat 64 (2^7 - 1) := by decide
  rw [this, BitVec.getLsbD_ofNat, Nat.testBit_two_pow_sub_one]
  by_cases h : j < 7
  · have : j < 64 := by omega
    simp [h, this]
  · simp [h]

theorem blockByte_shift (u : Word) (m : Bool) :
    ((blockByte u m >>> 1).setWidth 64 : Word) = u &&& 0x7F#64 := by
  unfold blockByte
  apply BitVec.eq_of_getLsbD_eq; intro i hi
  have hm : ((if m = true then 1#8 else 0#8 : Byte)).getLsbD (1 + i) = false := by
    cases m
    · simp
    · simp [BitVec.getLsbD_one]
  simp only [BitVec.getLsbD_setWidth, BitVec.getLsbD_ushiftRight, BitVec.getLsbD_or, hm,
    BitVec.getLsbD_shiftLeft, BitVec.getLsbD_and, Bool.or_false, getLsbD_7F]
  have e : 1 + i - 1 = i := by omega
  have e2 : decide (1 + i < 1) = false := by simp
  rw [e, e2]
  by_cases h : i < 7
  · have : 1 + i < 8 := by omega
    have h8 : i < 8 := by omega
    simp only [h, this, h8, hi, decide_true, Bool.not_false, Bool.true_and, Bool.and_true]
  · simp only [h, decide_false, Bool.and_false]

theorem or_split (u w : Word) (off : Nat) :
    (u ||| ((w &&& 0x7F#64) <<< off)) ||| ((w >>> 7) <<< (off + 7)) = u ||| (w <<< off) := by
  apply BitVec.eq_of_getLsbD_eq; intro i hi
  simp only [BitVec.getLsbD_or, BitVec.getLsbD_shiftLeft, BitVec.getLsbD_and, BitVec.getLsbD_ushiftRight,
    getLsbD_7F, hi]
  by_cases h1 : i < off
  · have : i < off + 7 := by omega
    simp [h1, this]
  · by_cases h2 : i < off + 7
    · have : i - off < 7 := by omega
      simp [h1, h2, this]
    · have e : 7 + (i - (off + 7)) = i - off := by omega
      have : ¬ (i - off < 7) := by omega
      simp [h1, h2, this, e]

theorem readUptrLoop_cons (u : Word) (off : Nat) (b : Byte) (s : List Byte) (h : off < 64) :
    readUptrLoop u off (b :: s) =
      if b &&& 1#8 ≠ 0#8 then readUptrLoop (u ||| ((b >>> 1).setWidth 64 <<< off)) (off + 7) s
      else .ok (u ||| ((b >>> 1).setWidth 64 <<< off), s) := by
  rw [readUptrLoop, dif_neg (by omega)]
  rfl

theorem readUptrLoop_nil (u : Word) (off : Nat) : readUptrLoop u off [] = .ub := by
  induction h : 64 - off using Nat.strongRecOn generalizing u off with
  | _ n ih =>
    rw [readUptrLoop]
    split
    · rfl
    · have hd : (255#8 &&& 1#8 : Byte) ≠ 0#8 := by decide
      refine Eq.trans (if_pos hd) ?_
      exact ih (64 - (off + 7)) (by omega) _ _ rfl

theorem readUptrLoop_write (w : Word) : ∀ (u : Word) (off : Nat) (rest : List Byte),
    off < 64 → w.toNat * 2 ^ off < 2 ^ 64 →
    readUptrLoop u off (writeUptr w ++ rest) = .ok (u ||| (w <<< off), rest) := by
  induction h : w.toNat using Nat.strongRecOn generalizing w with
  | _ n ih =>
    intro u off rest hoff hw
    rw [writeUptr_eq, List.cons_append, readUptrLoop_cons _ _ _ _ hoff, blockByte_shift]
    by_cases hz : w >>> 7 ≠ 0#64
    · rw [if_pos ((blockByte_and_one _ _).2 (by simpa using hz)), if_pos hz]
      have hz' : (w >>> 7).toNat ≠ 0 := fun h' => hz (by apply BitVec.eq_of_toNat_eq; simpa using h')
      have ht : (w >>> 7).toNat = w.toNat / 128 := by
        simp [BitVec.toNat_ushiftRight, Nat.shiftRight_eq_div_pow]
      have hle : (w.toNat / 128) * 2 ^ (off + 7) ≤ w.toNat * 2 ^ off := by
        rw [Nat.pow_add, Nat.mul_comm (2 ^ off), ← Nat.mul_assoc]
        exact Nat.mul_le_mul_right _ (Nat.div_mul_le_self _ _)
      have hlt : (w >>> 7).toNat * 2 ^ (off + 7) < 2 ^ 64 := by rw [ht, h]; rw [h] at hle; omega
      have hoff' : off + 7 < 64 := by
        apply (Nat.pow_lt_pow_iff_right (a := 2) (by decide)).1
        refine Nat.lt_of_le_of_lt ?_ hlt
        exact Nat.le_mul_of_pos_left _ (Nat.pos_of_ne_zero hz')
      have hdec : (w >>> 7).toNat < n := by omega
      rw [ih (w >>> 7).toNat hdec (w >>> 7) rfl _ _ _ hoff' hlt, or_split]
    · rw [if_neg (by rw [blockByte_and_one]; simpa using hz), if_neg hz]
      have e := or_split u w off
      have hz0 : w >>> 7 = 0#64 := by simpa using hz
      rw [hz0] at e
      simp only [BitVec.zero_shiftLeft, BitVec.or_zero] at e
      rw [e]; rfl

theorem readUptr_write (w : Word) (rest : List Byte) : readUptr (writeUptr w ++ rest) = .ok (w, rest) := by
  have := readUptrLoop_write w 0 0 rest (by decide) (by simpa using w.isLt)
  simpa [readUptr] using this

theorem writeUptr_ne_nil (w : Word) : writeUptr w ≠ [] := by
  rw [writeUptr_eq]; simp


mutual
/-- The objects `fasl-write` accepts and the C representation can hold: strings and symbol names are NUL-free,
lengths fit a C `long`, nothing unserialisable inside.  (Specification predicate, no source counterpart.) -/
def serialisable : Datum → Bool
  | .null | .tru | .fls | .eof | .void | .emptyVec | .baseRtd | .fix _ | .chr _ => true
  | .sym s | .str s => s.all (fun b => b ≠ 0#8) && decide (s.length < 2 ^ 63)
  | .pair a d => serialisable a && serialisable d && decide (listLength d + 1 < 2 ^ 63)
  | .vec es => serialisableList es && decide (es.length < 2 ^ 63)
  | .record r fs => serialisable r && serialisableList fs && decide (fs.length < 2 ^ 63)
  | .other _ => false
/-- see `serialisable` -/
def serialisableList : List Datum → Bool
  | [] => true
  | d :: ds => serialisable d && serialisableList ds
end

/-- elements along the cdr chain -/
def spine : Datum → List Datum
  | .pair a d => a :: spine d
  | _ => []

/-- what the cdr chain ends in -/
def spineEnd : Datum → Datum
  | .pair _ d => spineEnd d
  | d => d

theorem spine_length (d : Datum) : (spine d).length = listLength d := by
  fun_induction spine d <;> simp_all [listLength]

theorem foldr_spine (d : Datum) : (spine d).foldr Datum.pair (spineEnd d) = d := by
  fun_induction spine d <;> simp_all [spineEnd]

/-- reading back an encoding `b` of `d` -/
def ReadsAs (b : List Byte) (d : Datum) : Prop :=
  1 ≤ b.length ∧ ∀ fuel rest, 2 * b.length ≤ fuel → readFaslAux fuel (b ++ rest) = .ok (d, rest)

/-- reading back encodings `b` of the sequence `ds` -/
def ReadsAsN (b : List Byte) (ds : List Datum) : Prop :=
  ds.length ≤ b.length ∧
  ∀ fuel rest, 2 * b.length + 1 ≤ fuel → readFaslN fuel ds.length (b ++ rest) = .ok (ds, rest)

theorem ReadsAsN.nil : ReadsAsN [] [] := by
  refine ⟨by simp, fun fuel rest h => ?_⟩
  match fuel, h with
  | fuel + 1, _ => simp [readFaslN]

theorem ReadsAsN.cons {b bs d ds} (h : ReadsAs b d) (hs : ReadsAsN bs ds) : ReadsAsN (b ++ bs) (d :: ds) := by
  refine ⟨by have := h.1; have := hs.1; simp; omega, fun fuel rest hf => ?_⟩
  have h1 := h.1
  simp only [List.length_append] at hf
  match fuel, hf with
  | fuel + 1, hf =>
    simp only [readFaslN, List.length_cons, List.append_assoc]
    rw [h.2 fuel (bs ++ rest) (by omega)]
    simp [hs.2 fuel rest (by omega)]

theorem readBytes_append (s rest : List Byte) : readBytes s.length (s ++ rest) = (s, rest) := by
  induction s with
  | nil => rfl
  | cons b s ih => simp [readBytes, ih]

theorem readLen_write {n : Nat} (h : n < 2 ^ 63) (rest : List Byte) :
    readLen (writeLen n ++ rest) = .ok (n, rest) := by
  unfold readLen writeLen
  rw [readUptr_write]
  have : (BitVec.ofNat 64 n).toNat = n := by rw [BitVec.toNat_ofNat]; omega
  simp only [Res.ok_bind, this]
  rw [if_neg (by omega)]
  rfl

/-- the two facts proved by induction: as an object and as the cdr inside the pair loop -/
def Good (d : Datum) : Prop :=
  (∃ b, writeFaslAux false d = .ok b ∧ ReadsAs b d) ∧
  (∃ be bt, writeFaslAux true d = .ok (be ++ bt) ∧ ReadsAsN be (spine d) ∧ ReadsAs bt (spineEnd d))

theorem Good.of_atom {d : Datum} {b} (hs : spine d = []) (he : spineEnd d = d)
    (hw : ∀ t, writeFaslAux t d = .ok b) (h : ReadsAs b d) : Good d := by
  refine ⟨⟨b, hw _, h⟩, ⟨[], b, by simp [hw], ?_, ?_⟩⟩
  · rw [hs]; exact ReadsAsN.nil
  · rw [he]; exact h

theorem reads_const {t : Byte} {d : Datum}
    (h : ∀ fuel rest, readFaslAux (fuel + 1) (t :: rest) = .ok (d, rest)) : ReadsAs [t] d := by
  refine ⟨by simp, fun fuel rest hf => ?_⟩
  match fuel, hf with
  | fuel + 1, _ => exact h fuel rest

theorem reads_sym {s : List Byte} (h0 : ∀ b ∈ s, b ≠ 0#8) (h1 : s.length < 2 ^ 63) :
    ReadsAs (tSYMBOL :: (writeLen (cstr s).length ++ cstr s)) (.sym s) := by
  rw [cstr_eq_self h0]
  refine ⟨by simp, fun fuel rest hf => ?_⟩
  match fuel, hf with
  | fuel + 1, _ =>
    simp only [List.cons_append, List.append_assoc, readFaslAux_cons, readBody]
    simp [tSYMBOL, tNULL, tTRUE, tFALSE, tEOF, tVOID, readLen_write h1, readBytes_append, cstr_eq_self h0]

theorem reads_str {s : List Byte} (h0 : ∀ b ∈ s, b ≠ 0#8) (h1 : s.length < 2 ^ 63) :
    ReadsAs (tSTRING :: (writeLen (cstr s).length ++ cstr s)) (.str s) := by
  rw [cstr_eq_self h0]
  refine ⟨by simp, fun fuel rest hf => ?_⟩
  match fuel, hf with
  | fuel + 1, _ =>
    simp only [List.cons_append, List.append_assoc, readFaslAux_cons, readBody]
    simp [tSYMBOL, tSTRING, tNULL, tTRUE, tFALSE, tEOF, tVOID, readLen_write h1, readBytes_append, cstr_eq_self h0]

theorem reads_fix (v : Word) : ReadsAs (tFIXNUM :: writeUptr v) (.fix v) := by
  refine ⟨by simp, fun fuel rest hf => ?_⟩
  match fuel, hf with
  | fuel + 1, _ =>
    simp only [List.cons_append, readFaslAux_cons, readBody]
    simp [tFIXNUM, tSYMBOL, tSTRING, tNULL, tTRUE, tFALSE, tEOF, tVOID, readUptr_write]

theorem reads_chr (c : Byte) : ReadsAs [tCHAR, c] (.chr c) := by
  refine ⟨by simp, fun fuel rest hf => ?_⟩
  match fuel, hf with
  | fuel + 1, _ =>
    simp only [List.cons_append, readFaslAux_cons, readBody]
    simp [tCHAR, tFIXNUM, tSYMBOL, tSTRING, tNULL, tTRUE, tFALSE, tEOF, tVOID]

theorem reads_vec {es : List Datum} {b} (h1 : es.length < 2 ^ 63) (h : ReadsAsN b es) :
    ReadsAs (tVECTOR :: (writeLen es.length ++ b)) (.vec es) := by
  refine ⟨by simp, fun fuel rest hf => ?_⟩
  simp only [List.length_cons, List.length_append] at hf
  match fuel, hf with
  | fuel + 1, hf =>
    simp only [List.cons_append, List.append_assoc, readFaslAux_cons, readBody]
    simp [tVECTOR, tEMPTYVEC, tPAIR, tCHAR, tFIXNUM, tSYMBOL, tSTRING, tNULL, tTRUE, tFALSE, tEOF, tVOID,
      readLen_write h1, h.2 fuel rest (by omega)]

theorem reads_record {r : Datum} {fs : List Datum} {br bf} (h1 : fs.length < 2 ^ 63)
    (hr : ReadsAs br r) (hf : ReadsAsN bf fs) :
    ReadsAs (tRECORD :: (writeLen fs.length ++ (br ++ bf))) (.record r fs) := by
  refine ⟨by simp, fun fuel rest hfu => ?_⟩
  simp only [List.length_cons, List.length_append] at hfu
  have := hr.1
  match fuel, hfu with
  | fuel + 1, hfu =>
    simp only [List.cons_append, List.append_assoc, readFaslAux_cons, readBody]
    simp [tRECORD, tBASERTD, tVECTOR, tEMPTYVEC, tPAIR, tCHAR, tFIXNUM, tSYMBOL, tSTRING, tNULL, tTRUE, tFALSE, tEOF,
      tVOID, readLen_write h1, hr.2 fuel (bf ++ rest) (by omega), hf.2 fuel rest (by omega)]

theorem reads_pair {a d : Datum} {be bt} (h1 : listLength d + 1 < 2 ^ 63)
    (he : ReadsAsN be (a :: spine d)) (ht : ReadsAs bt (spineEnd d)) :
    ReadsAs (tPAIR :: writeLen (listLength (.pair a d)) ++ (be ++ bt)) (.pair a d) := by
  refine ⟨by simp, fun fuel rest hf => ?_⟩
  simp only [List.length_cons, List.length_append, List.cons_append] at hf
  have := ht.1
  match fuel, hf with
  | fuel + 1, hf =>
    simp only [List.cons_append, List.append_assoc, readFaslAux_cons, readBody, writeLen, readUptr_write]
    have e : (BitVec.ofNat 64 (listLength (.pair a d))).toNat = (a :: spine d).length := by
      rw [BitVec.toNat_ofNat]; simp [listLength, spine_length]; omega
    have e2 : pairCount (BitVec.ofNat 64 (listLength (.pair a d))) = (a :: spine d).length := by
      rw [pairCount, e]
      simp only [List.length_cons, spine_length]
      rw [if_neg (by omega)]; omega
    rw [if_neg (by decide), if_neg (by decide), if_neg (by decide), if_neg (by decide), if_neg (by decide),
      if_neg (by decide), if_neg (by decide), if_neg (by decide), if_neg (by decide), if_pos trivial]
    simp only [Res.ok_bind, e2]
    rw [he.2 fuel (bt ++ rest) (by omega)]
    simp only [Res.ok_bind, ht.2 fuel rest (by omega)]
    simp [foldr_spine]

mutual
theorem good (d : Datum) (hs : serialisable d = true) : Good d := by
  match d, hs with
  | .null, _ => exact .of_atom (b := [tNULL]) rfl rfl (fun _ => by simp [writeFaslAux]) (reads_const fun _ _ => by simp [readFaslAux_cons, readBody])
  | .tru, _ => exact .of_atom (b := [tTRUE]) rfl rfl (fun _ => by simp [writeFaslAux]) (reads_const fun _ _ => by simp [readFaslAux_cons, readBody, tNULL, tTRUE])
  | .fls, _ => exact .of_atom (b := [tFALSE]) rfl rfl (fun _ => by simp [writeFaslAux]) (reads_const fun _ _ => by simp [readFaslAux_cons, readBody, tNULL, tTRUE, tFALSE])
  | .eof, _ => exact .of_atom (b := [tEOF]) rfl rfl (fun _ => by simp [writeFaslAux]) (reads_const fun _ _ => by simp [readFaslAux_cons, readBody, tNULL, tTRUE, tFALSE, tEOF])
  | .void, _ => exact .of_atom (b := [tVOID]) rfl rfl (fun _ => by simp [writeFaslAux]) (reads_const fun _ _ => by simp [readFaslAux_cons, readBody, tNULL, tTRUE, tFALSE, tEOF, tVOID])
  | .emptyVec, _ => exact .of_atom (b := [tEMPTYVEC]) rfl rfl (fun _ => by simp [writeFaslAux]) (reads_const fun _ _ => by simp [readFaslAux_cons, readBody, tNULL, tTRUE, tFALSE, tEOF, tVOID, tSYMBOL, tSTRING, tFIXNUM, tCHAR, tPAIR, tEMPTYVEC])
  | .baseRtd, _ => exact .of_atom (b := [tBASERTD]) rfl rfl (fun _ => by simp [writeFaslAux]) (reads_const fun _ _ => by simp [readFaslAux_cons, readBody, tNULL, tTRUE, tFALSE, tEOF, tVOID, tSYMBOL, tSTRING, tFIXNUM, tCHAR, tPAIR, tEMPTYVEC, tVECTOR, tBASERTD])
  | .sym s, hs =>
    simp only [serialisable, Bool.and_eq_true, List.all_eq_true, decide_eq_true_eq] at hs
    exact .of_atom rfl rfl (fun _ => by simp [writeFaslAux]) (reads_sym hs.1 hs.2)
  | .str s, hs =>
    simp only [serialisable, Bool.and_eq_true, List.all_eq_true, decide_eq_true_eq] at hs
    exact .of_atom rfl rfl (fun _ => by simp [writeFaslAux]) (reads_str hs.1 hs.2)
  | .fix v, _ => exact .of_atom rfl rfl (fun _ => by simp [writeFaslAux]) (reads_fix v)
  | .chr c, _ => exact .of_atom rfl rfl (fun _ => by simp [writeFaslAux]) (reads_chr c)
  | .vec es, hs =>
    simp only [serialisable, Bool.and_eq_true, decide_eq_true_eq] at hs
    obtain ⟨b, hb, hr⟩ := goodList es hs.1
    exact .of_atom rfl rfl (fun _ => by simp [writeFaslAux, hb]) (reads_vec hs.2 hr)
  | .record r fs, hs =>
    simp only [serialisable, Bool.and_eq_true, decide_eq_true_eq] at hs
    obtain ⟨bf, hbf, hf⟩ := goodList fs hs.1.2
    obtain ⟨br, hbr, hr⟩ := (good r hs.1.1).1
    exact .of_atom rfl rfl (fun _ => by simp [writeFaslAux, hbf, hbr]) (reads_record hs.2 hr hf)
  | .pair a d, hs =>
    simp only [serialisable, Bool.and_eq_true, decide_eq_true_eq] at hs
    obtain ⟨ba, hba, ha⟩ := (good a hs.1.1).1
    obtain ⟨be, bt, hbd, he, ht⟩ := (good d hs.1.2).2
    have he' := ReadsAsN.cons ha he
    refine ⟨⟨_, ?_, reads_pair hs.2 he' ht⟩, ⟨ba ++ be, bt, ?_, he', ht⟩⟩
    · simp [writeFaslAux, hba, hbd]
    · simp [writeFaslAux, hba, hbd]
theorem goodList (ds : List Datum) (hs : serialisableList ds = true) :
    ∃ b, writeFaslList ds = .ok b ∧ ReadsAsN b ds := by
  match ds, hs with
  | [], _ => exact ⟨[], by simp [writeFaslList], ReadsAsN.nil⟩
  | d :: ds, hs =>
    simp only [serialisableList, Bool.and_eq_true] at hs
    obtain ⟨b, hb, h⟩ := (good d hs.1).1
    obtain ⟨bs, hbs, h'⟩ := goodList ds hs.2
    exact ⟨b ++ bs, by simp [writeFaslList, hb, hbs], ReadsAsN.cons h h'⟩
end


/-! ### Consumption and fuel -/

theorem fgetc_length (s : List Byte) : (fgetc s).2.length ≤ s.length := by
  cases s <;> simp

theorem readUptrLoop_length (u : Word) (off : Nat) (s : List Byte) (w : Word) (s' : List Byte)
    (h : readUptrLoop u off s = .ok (w, s')) : s'.length ≤ s.length := by
  induction hn : 64 - off using Nat.strongRecOn generalizing u off s with
  | _ n ih =>
    rw [readUptrLoop] at h
    split at h
    · cases h
    · dsimp only at h
      have hl := fgetc_length s
      split at h
      · exact Nat.le_trans (ih (64 - (off + 7)) (by omega) _ _ _ h rfl) hl
      · injection h with h; injection h with h1 h2
        rw [← h2]; exact hl

theorem readUptr_length {s w s'} (h : readUptr s = .ok (w, s')) : s'.length ≤ s.length :=
  readUptrLoop_length _ _ _ _ _ h

theorem readLen_length {s n s'} (h : readLen s = .ok (n, s')) : s'.length ≤ s.length := by
  unfold readLen at h
  rw [Res.bind_eq_ok] at h
  obtain ⟨⟨w, s1⟩, h1, h2⟩ := h
  dsimp only at h2
  split at h2
  · cases h2
  · simp only [Res.pure_eq, Res.ok.injEq, Prod.mk.injEq] at h2
    rw [← h2.2]; exact readUptr_length h1

theorem readBytes_length (n : Nat) (s : List Byte) : (readBytes n s).2.length ≤ s.length := by
  induction n generalizing s with
  | zero => simp [readBytes]
  | succ n ih => exact Nat.le_trans (ih _) (fgetc_length s)

theorem readUptrLoop_ne_oof (u : Word) (off : Nat) (s : List Byte) : readUptrLoop u off s ≠ .oof := by
  induction hn : 64 - off using Nat.strongRecOn generalizing u off s with
  | _ n ih =>
    rw [readUptrLoop]
    split
    · simp
    · dsimp only
      split
      · exact ih (64 - (off + 7)) (by omega) _ _ _ rfl
      · simp

theorem readUptr_ne_oof (s : List Byte) : readUptr s ≠ .oof := readUptrLoop_ne_oof _ _ _

theorem readLen_ne_oof (s : List Byte) : readLen s ≠ .oof := by
  unfold readLen
  apply Res.bind_ne_oof (readUptr_ne_oof s)
  intro a _
  dsimp only
  split <;> simp

theorem readFaslAux_nil (fuel : Nat) : readFaslAux (fuel + 1) [] = .err := by
  simp [readFaslAux, readBody, tNULL, tTRUE, tFALSE, tEOF, tVOID, tSYMBOL, tSTRING, tFIXNUM, tCHAR, tPAIR, tEMPTYVEC, tVECTOR,
    tBASERTD, tRECORD]

theorem readBody_cases {rd : List Byte → Res (Datum × List Byte)} {rdN : Nat → List Byte → Res (List Datum × List Byte)}
    {t : Byte} {s : List Byte} (P : Res (Datum × List Byte) → Prop)
    (herr : P .err) (hatom : ∀ d, P (.ok (d, s))) (hchr : P (.ok (.chr (fgetc s).1, (fgetc s).2)))
    (hstr : ∀ k : List Byte → Datum, P (readLen s >>= fun x => .ok (k (readBytes x.1 x.2).1, (readBytes x.1 x.2).2)))
    (hfix : P (readUptr s >>= fun x => .ok (.fix x.1, x.2)))
    (hpair : P (readUptr s >>= fun x => rdN (pairCount x.1) x.2 >>= fun y => rd y.2 >>= fun z =>
      .ok (y.1.foldr Datum.pair z.1, z.2)))
    (hvec : P (readLen s >>= fun x => rdN x.1 x.2 >>= fun y => .ok (.vec y.1, y.2)))
    (hrec : P (readLen s >>= fun x => rd x.2 >>= fun y => rdN x.1 y.2 >>= fun z => .ok (.record y.1 z.1, z.2))) :
    P (readBody rd rdN t s) := by
  have ite_P : ∀ (c : Prop) [Decidable c] (a b), P a → P b → P (if c then a else b) := by
    intro c _ a b ha hb; by_cases h : c
    · rw [if_pos h]; exact ha
    · rw [if_neg h]; exact hb
  unfold readBody
  repeat' refine ite_P _ _ _ ?_ ?_
  all_goals first | apply hatom | apply herr | apply hchr | exact hfix | exact hpair | exact hvec | exact hrec | skip
  · exact hstr (fun l => .sym (cstr l))
  · exact hstr (fun l => .str (cstr l))

theorem read_length (fuel : Nat) :
    (∀ s d s', readFaslAux fuel s = .ok (d, s') → s'.length < s.length) ∧
    (∀ n s ds s', readFaslN fuel n s = .ok (ds, s') → s'.length ≤ s.length) := by
  induction fuel with
  | zero => constructor <;> intros <;> simp_all [readFaslAux, readFaslN]
  | succ fuel ih =>
    obtain ⟨ih1, ih2⟩ := ih
    constructor
    · intro s
      cases s with
      | nil => intro d s' h; rw [readFaslAux_nil] at h; cases h
      | cons t s =>
        rw [readFaslAux_cons]
        refine readBody_cases (fun r => ∀ d s', r = .ok (d, s') → s'.length < (t :: s).length) ?_ ?_ ?_ ?_ ?_ ?_ ?_ ?_
        · intro d s' h; cases h
        · intro d d' s' h; cases h; simp
        · intro d s' h; cases h; have := fgetc_length s; simp only [List.length_cons]; omega
        · intro k d s' h
          obtain ⟨⟨n, s1⟩, h1, h2⟩ := Res.bind_eq_ok.1 h
          cases h2
          have a1 := readLen_length h1; have a2 := readBytes_length n s1
          simp only [List.length_cons]; omega
        · intro d s' h
          obtain ⟨⟨n, s1⟩, h1, h2⟩ := Res.bind_eq_ok.1 h
          cases h2
          have a1 := readUptr_length h1
          simp only [List.length_cons]; omega
        · intro d s' h
          obtain ⟨⟨n, s1⟩, h1, h⟩ := Res.bind_eq_ok.1 h
          obtain ⟨⟨x2, s2⟩, h2, h⟩ := Res.bind_eq_ok.1 h
          obtain ⟨⟨x3, s3⟩, h3, h⟩ := Res.bind_eq_ok.1 h
          cases h
          have a1 := readUptr_length h1; have a2 := ih2 _ _ _ _ h2; have a3 := ih1 _ _ _ h3
          simp only [List.length_cons] at *; omega
        · intro d s' h
          obtain ⟨⟨n, s1⟩, h1, h⟩ := Res.bind_eq_ok.1 h
          obtain ⟨⟨x2, s2⟩, h2, h⟩ := Res.bind_eq_ok.1 h
          cases h
          have a1 := readLen_length h1; have a2 := ih2 _ _ _ _ h2
          simp only [List.length_cons] at *; omega
        · intro d s' h
          obtain ⟨⟨n, s1⟩, h1, h⟩ := Res.bind_eq_ok.1 h
          obtain ⟨⟨x2, s2⟩, h2, h⟩ := Res.bind_eq_ok.1 h
          obtain ⟨⟨x3, s3⟩, h3, h⟩ := Res.bind_eq_ok.1 h
          cases h
          have a1 := readLen_length h1; have a2 := ih1 _ _ _ h2; have a3 := ih2 _ _ _ _ h3
          simp only [List.length_cons] at *; omega
    · intro n s ds s' h
      cases n with
      | zero => simp only [readFaslN, Res.ok.injEq, Prod.mk.injEq] at h; rw [h.2]; omega
      | succ n =>
        simp only [readFaslN, Res.bind_eq_ok, Res.pure_eq, Res.ok.injEq, Prod.mk.injEq] at h
        obtain ⟨⟨x1, s1⟩, h1, ⟨x2, s2⟩, h2, -, h3⟩ := h
        subst h3
        have a1 := ih1 _ _ _ h1; have a2 := ih2 _ _ _ _ h2; simp only at *; omega

theorem read_ne_oof (fuel : Nat) :
    (∀ s, 2 * s.length + 1 ≤ fuel → readFaslAux fuel s ≠ .oof) ∧
    (∀ n s, 2 * s.length + 2 ≤ fuel → readFaslN fuel n s ≠ .oof) := by
  induction fuel with
  | zero => constructor <;> intros <;> omega
  | succ fuel ih =>
    obtain ⟨ih1, ih2⟩ := ih
    constructor
    · intro s hf
      cases s with
      | nil => rw [readFaslAux_nil]; simp
      | cons t s =>
        simp only [List.length_cons] at hf
        rw [readFaslAux_cons]
        refine readBody_cases (fun r => r ≠ .oof) ?_ ?_ ?_ ?_ ?_ ?_ ?_ ?_
        · simp
        · simp
        · simp
        · intro k; exact Res.bind_ne_oof (readLen_ne_oof s) (by simp)
        · exact Res.bind_ne_oof (readUptr_ne_oof s) (by simp)
        · apply Res.bind_ne_oof (readUptr_ne_oof s); intro ⟨w, s1⟩ h1
          have a1 := readUptr_length h1
          apply Res.bind_ne_oof (ih2 _ _ (by simp only; omega)); intro ⟨x2, s2⟩ h2
          have a2 := (read_length fuel).2 _ _ _ _ h2
          apply Res.bind_ne_oof (ih1 _ (by simp only at *; omega)); intro ⟨x3, s3⟩ h3
          simp
        · apply Res.bind_ne_oof (readLen_ne_oof s); intro ⟨w, s1⟩ h1
          have a1 := readLen_length h1
          apply Res.bind_ne_oof (ih2 _ _ (by simp only; omega)); intro ⟨x2, s2⟩ h2
          simp
        · apply Res.bind_ne_oof (readLen_ne_oof s); intro ⟨w, s1⟩ h1
          have a1 := readLen_length h1
          apply Res.bind_ne_oof (ih1 _ (by simp only; omega)); intro ⟨x2, s2⟩ h2
          have a2 := (read_length fuel).1 _ _ _ h2
          apply Res.bind_ne_oof (ih2 _ _ (by simp only at *; omega)); intro ⟨x3, s3⟩ h3
          simp
    · intro n s hf
      cases n with
      | zero => simp [readFaslN]
      | succ n =>
        simp only [readFaslN]
        apply Res.bind_ne_oof (ih1 _ (by omega)); intro ⟨x1, s1⟩ h1
        have a1 := (read_length fuel).1 _ _ _ h1
        apply Res.bind_ne_oof (ih2 _ _ (by simp only; omega)); intro ⟨x2, s2⟩ h2
        simp

theorem readBody_le {rd rd' : List Byte → Res (Datum × List Byte)} {rdN rdN' : Nat → List Byte → Res (List Datum × List Byte)}
    (h : ∀ s, Res.Le (rd s) (rd' s)) (hN : ∀ n s, Res.Le (rdN n s) (rdN' n s)) (t : Byte) (s : List Byte) :
    Res.Le (readBody rd rdN t s) (readBody rd' rdN' t s) := by
  unfold readBody
  repeat' refine Res.Le.ite ?_ ?_
  all_goals first
    | exact Res.Le.refl _
    | (refine Res.Le.bind (Res.Le.refl _) fun x => ?_
       first
       | (refine Res.Le.bind (hN _ _) fun y => ?_
          first
          | exact Res.Le.refl _
          | (refine Res.Le.bind (h _) fun z => ?_
             exact Res.Le.refl _))
       | (refine Res.Le.bind (h _) fun y => ?_
          refine Res.Le.bind (hN _ _) fun z => ?_
          exact Res.Le.refl _))

theorem read_mono_step (fuel : Nat) :
    (∀ s, Res.Le (readFaslAux fuel s) (readFaslAux (fuel + 1) s)) ∧
    (∀ n s, Res.Le (readFaslN fuel n s) (readFaslN (fuel + 1) n s)) := by
  induction fuel with
  | zero =>
    constructor
    · intro s; left; rw [readFaslAux]
    · intro n s; left; rw [readFaslN]
  | succ fuel ih =>
    constructor
    · intro s
      rw [readFaslAux, readFaslAux.eq_2 _ (fuel + 1)]
      exact readBody_le ih.1 ih.2 _ _
    · intro n s
      cases n with
      | zero => right; simp [readFaslN]
      | succ n =>
        rw [readFaslN, readFaslN.eq_3 _ (fuel + 1)]
        refine Res.Le.bind (ih.1 _) fun x => ?_
        refine Res.Le.bind (ih.2 _ _) fun y => ?_
        exact Res.Le.refl _

theorem read_mono {fuel fuel' : Nat} (hf : fuel ≤ fuel') (s : List Byte) :
    Res.Le (readFaslAux fuel s) (readFaslAux fuel' s) := by
  induction hf with
  | refl => exact Res.Le.refl _
  | step _ ih => exact ih.trans ((read_mono_step _).1 s)

theorem readN_mono {fuel fuel' : Nat} (hf : fuel ≤ fuel') (n : Nat) (s : List Byte) :
    Res.Le (readFaslN fuel n s) (readFaslN fuel' n s) := by
  induction hf with
  | refl => exact Res.Le.refl _
  | step _ ih => exact ih.trans ((read_mono_step _).2 n s)

theorem ReadsAs.unique {b d} (h : ReadsAs b d) {fuel rest x} (hx : readFaslAux fuel (b ++ rest) = .ok x) :
    x = (d, rest) := by
  have h1 := (read_mono (Nat.le_max_left fuel (2 * b.length)) (b ++ rest)).eq_ok hx
  have h2 := h.2 (max fuel (2 * b.length)) rest (Nat.le_max_right _ _)
  rw [h2] at h1; cases h1; rfl

theorem ReadsAsN.unique {b ds} (h : ReadsAsN b ds) {fuel rest x}
    (hx : readFaslN fuel ds.length (b ++ rest) = .ok x) : x = (ds, rest) := by
  have h1 := (readN_mono (Nat.le_max_left fuel (2 * b.length + 1)) ds.length (b ++ rest)).eq_ok hx
  have h2 := h.2 (max fuel (2 * b.length + 1)) rest (Nat.le_max_right _ _)
  rw [h2] at h1; cases h1; rfl

/-! ### Truncation -/

theorem readUptrLoop_prefix (w : Word) : ∀ (u : Word) (off : Nat) (p q : List Byte),
    writeUptr w = p ++ q → q ≠ [] → readUptrLoop u off p = .ub := by
  induction h : w.toNat using Nat.strongRecOn generalizing w with
  | _ n ih =>
    intro u off p q e hq
    cases p with
    | nil => exact readUptrLoop_nil u off
    | cons b p =>
      by_cases hoff : off < 64
      · rw [readUptrLoop_cons _ _ _ _ hoff]
        rw [writeUptr_eq, List.cons_append] at e
        injection e with e1 e2
        by_cases hz : w >>> 7 ≠ 0#64
        · rw [if_pos hz] at e2
          rw [← e1, if_pos ((blockByte_and_one _ _).2 (by simpa using hz))]
          have hz' : (w >>> 7).toNat ≠ 0 := fun h' => hz (by apply BitVec.eq_of_toNat_eq; simpa using h')
          have ht : (w >>> 7).toNat = w.toNat / 128 := by
            simp [BitVec.toNat_ushiftRight, Nat.shiftRight_eq_div_pow]
          exact ih (w >>> 7).toNat (by omega) (w >>> 7) rfl _ _ p q e2 hq
        · rw [if_neg hz] at e2
          have := (List.append_eq_nil_iff.1 e2.symm).2
          exact absurd this hq
      · rw [readUptrLoop, dif_pos (by omega)]

theorem readUptr_prefix {w : Word} {p q : List Byte} (e : writeUptr w = p ++ q) (hq : q ≠ []) :
    readUptr p = .ub := readUptrLoop_prefix w _ _ p q e hq

theorem readLen_prefix {n : Nat} {p q : List Byte} (e : writeLen n = p ++ q) (hq : q ≠ []) :
    readLen p = .ub := by
  unfold readLen; rw [readUptr_prefix e hq]; rfl

theorem cut_cases {b1 b2 p q : List Byte} (e : b1 ++ b2 = p ++ q) :
    (∃ c, c ≠ [] ∧ b1 = p ++ c) ∨ (∃ a, p = b1 ++ a ∧ b2 = a ++ q) := by
  rcases List.append_eq_append_iff.1 e with ⟨a, h1, h2⟩ | ⟨c, h1, h2⟩
  · exact Or.inr ⟨a, h1, h2⟩
  · by_cases hc : c = []
    · subst hc; right; exact ⟨[], by simpa using h1.symm, by simpa using h2.symm⟩
    · exact Or.inl ⟨c, hc, h1⟩

/-- no proper prefix of `b` is read as an object -/
def Cut (b : List Byte) : Prop := ∀ p q, b = p ++ q → q ≠ [] → ∀ fuel x, readFaslAux fuel p ≠ .ok x
/-- no proper prefix of `b` is read as `n` objects -/
def CutN (b : List Byte) (n : Nat) : Prop := ∀ p q, b = p ++ q → q ≠ [] → ∀ fuel x, readFaslN fuel n p ≠ .ok x

theorem CutN.nil (n : Nat) : CutN [] n := by
  intro p q e hq; exact absurd (List.append_eq_nil_iff.1 e.symm).2 hq

theorem CutN.cons {b bs d n} (hr : ReadsAs b d) (h : Cut b) (hs : CutN bs n) : CutN (b ++ bs) (n + 1) := by
  intro p q e hq fuel x hx
  cases fuel with
  | zero => rw [readFaslN] at hx; cases hx
  | succ fuel =>
    rw [readFaslN] at hx
    obtain ⟨y, h1, hx⟩ := Res.bind_eq_ok.1 hx
    obtain ⟨z, h2, hx⟩ := Res.bind_eq_ok.1 hx
    rcases cut_cases e with ⟨c, hc, e1⟩ | ⟨a, e1, e2⟩
    · exact h p c e1 hc _ _ h1
    · subst e1
      have := hr.unique h1; subst this
      exact hs a q e2 hq _ _ h2

theorem not_ok_nil (fuel : Nat) (x) : readFaslAux fuel [] ≠ .ok x := by
  cases fuel with
  | zero => simp [readFaslAux]
  | succ fuel => rw [readFaslAux_nil]; simp

theorem Cut.single (t : Byte) : Cut [t] := by
  intro p q e hq fuel x
  cases p with
  | nil => exact not_ok_nil fuel x
  | cons b p => injection e with _ e; exact absurd (List.append_eq_nil_iff.1 e.symm).2 hq

theorem Cut.tagged {t : Byte} {b : List Byte}
    (h : ∀ p q, b = p ++ q → q ≠ [] → ∀ fuel x, readBody (readFaslAux fuel) (readFaslN fuel) t p ≠ .ok x) :
    Cut (t :: b) := by
  intro p q e hq fuel x
  cases p with
  | nil => exact not_ok_nil fuel x
  | cons b' p =>
    injection e with e1 e2
    subst e1
    cases fuel with
    | zero => simp [readFaslAux]
    | succ fuel => rw [readFaslAux_cons]; exact h p q e2 hq fuel x

theorem readBody_fix (rd rdN s) : readBody rd rdN tFIXNUM s = readUptr s >>= fun x => .ok (.fix x.1, x.2) := by
  simp [readBody, tFIXNUM, tSYMBOL, tSTRING, tNULL, tTRUE, tFALSE, tEOF, tVOID]

theorem readBody_vec (rd rdN s) : readBody rd rdN tVECTOR s =
    readLen s >>= fun x => rdN x.1 x.2 >>= fun y => .ok (.vec y.1, y.2) := by
  simp [readBody, tVECTOR, tEMPTYVEC, tPAIR, tCHAR, tFIXNUM, tSYMBOL, tSTRING, tNULL, tTRUE, tFALSE, tEOF, tVOID]

theorem readBody_record (rd rdN s) : readBody rd rdN tRECORD s =
    readLen s >>= fun x => rd x.2 >>= fun y => rdN x.1 y.2 >>= fun z => .ok (.record y.1 z.1, z.2) := by
  simp [readBody, tRECORD, tBASERTD, tVECTOR, tEMPTYVEC, tPAIR, tCHAR, tFIXNUM, tSYMBOL, tSTRING, tNULL, tTRUE,
    tFALSE, tEOF, tVOID]

theorem readBody_pair (rd rdN s) : readBody rd rdN tPAIR s =
    readUptr s >>= fun x => rdN (pairCount x.1) x.2 >>= fun y => rd y.2 >>= fun z =>
      .ok (y.1.foldr Datum.pair z.1, z.2) := by
  simp [readBody, tPAIR, tCHAR, tFIXNUM, tSYMBOL, tSTRING, tNULL, tTRUE, tFALSE, tEOF, tVOID]

theorem pairCount_ofNat {n : Nat} (h1 : 1 ≤ n) (h : n < 2 ^ 63) : pairCount (BitVec.ofNat 64 n) = n := by
  unfold pairCount
  have : (BitVec.ofNat 64 n).toNat = n := by rw [BitVec.toNat_ofNat]; omega
  rw [this, if_neg (by omega)]; omega

theorem Cut.fix (v : Word) : Cut (tFIXNUM :: writeUptr v) := by
  apply Cut.tagged
  intro p q e hq fuel x
  rw [readBody_fix, readUptr_prefix e hq]; simp

theorem Cut.vec {n b} (h1 : n < 2 ^ 63) (h : CutN b n) : Cut (tVECTOR :: (writeLen n ++ b)) := by
  apply Cut.tagged
  intro p q e hq fuel x
  rw [readBody_vec]
  rcases cut_cases e with ⟨c, hc, e1⟩ | ⟨a, e1, e2⟩
  · rw [readLen_prefix e1 hc]; simp
  · subst e1
    rw [readLen_write h1, Res.ok_bind]
    intro hx
    obtain ⟨y, h2, hx⟩ := Res.bind_eq_ok.1 hx
    exact h a q e2 hq _ _ h2

theorem Cut.record {n br bf r} (h1 : n < 2 ^ 63) (hr : ReadsAs br r) (h2 : Cut br) (h : CutN bf n) :
    Cut (tRECORD :: (writeLen n ++ (br ++ bf))) := by
  apply Cut.tagged
  intro p q e hq fuel x
  rw [readBody_record]
  rcases cut_cases e with ⟨c, hc, e1⟩ | ⟨a, e1, e2⟩
  · rw [readLen_prefix e1 hc]; simp
  · subst e1
    rw [readLen_write h1, Res.ok_bind]
    intro hx
    obtain ⟨y, hy, hx⟩ := Res.bind_eq_ok.1 hx
    obtain ⟨z, hz, hx⟩ := Res.bind_eq_ok.1 hx
    rcases cut_cases e2 with ⟨c, hc, e1⟩ | ⟨a', e1, e3⟩
    · exact h2 _ _ e1 hc _ _ hy
    · subst e1
      have := hr.unique hy; subst this
      exact h _ _ e3 hq _ _ hz

theorem Cut.pair {ds be bt} (h1 : ds.length < 2 ^ 63) (h0 : 1 ≤ ds.length) (hr : ReadsAsN be ds)
    (he : CutN be ds.length) (ht : Cut bt) :
    Cut (tPAIR :: (writeLen ds.length ++ (be ++ bt))) := by
  apply Cut.tagged
  intro p q e hq fuel x
  rw [readBody_pair]
  rcases cut_cases e with ⟨c, hc, e1⟩ | ⟨a, e1, e2⟩
  · rw [readUptr_prefix e1 hc]; simp
  · subst e1
    rw [writeLen, readUptr_write, Res.ok_bind, pairCount_ofNat h0 h1]
    intro hx
    obtain ⟨y, hy, hx⟩ := Res.bind_eq_ok.1 hx
    obtain ⟨z, hz, hx⟩ := Res.bind_eq_ok.1 hx
    rcases cut_cases e2 with ⟨c, hc, e1⟩ | ⟨a', e1, e3⟩
    · exact he _ _ e1 hc _ _ hy
    · subst e1
      have := hr.unique hy; subst this
      exact ht _ _ e3 hq _ _ hz

mutual
/-- no symbol, string or character inside (specification predicate, no source counterpart) -/
def textFree : Datum → Bool
  | .sym _ | .str _ | .chr _ => false
  | .pair a d => textFree a && textFree d
  | .vec es => textFreeList es
  | .record r fs => textFree r && textFreeList fs
  | _ => true
/-- see `textFree` -/
def textFreeList : List Datum → Bool
  | [] => true
  | d :: ds => textFree d && textFreeList ds
end

/-- `Good` with the truncation facts -/
def GoodCut (d : Datum) : Prop :=
  (∃ b, writeFaslAux false d = .ok b ∧ ReadsAs b d ∧ Cut b) ∧
  (∃ be bt, writeFaslAux true d = .ok (be ++ bt) ∧ ReadsAsN be (spine d) ∧ CutN be (spine d).length ∧
    ReadsAs bt (spineEnd d) ∧ Cut bt)

theorem GoodCut.of_atom {d : Datum} {b} (hs : spine d = []) (he : spineEnd d = d)
    (hw : ∀ t, writeFaslAux t d = .ok b) (h : ReadsAs b d) (hc : Cut b) : GoodCut d := by
  refine ⟨⟨b, hw _, h, hc⟩, ⟨[], b, by simp [hw], ?_, CutN.nil _, ?_, hc⟩⟩
  · rw [hs]; exact ReadsAsN.nil
  · rw [he]; exact h

theorem GoodCut.of_const {d : Datum} {t} (hs : spine d = []) (he : spineEnd d = d) (hd : serialisable d = true)
    (hw : ∀ tl, writeFaslAux tl d = .ok [t]) : GoodCut d := by
  obtain ⟨b, hb, hr⟩ := (good d hd).1
  rw [hw] at hb; cases hb
  exact .of_atom hs he hw hr (Cut.single t)

mutual
theorem goodCut (d : Datum) (hs : serialisable d = true) (ht : textFree d = true) : GoodCut d := by
  match d, hs, ht with
  | .null, hs, _ => exact .of_const (t := tNULL) rfl rfl hs (fun _ => by simp only [writeFaslAux])
  | .tru, hs, _ => exact .of_const (t := tTRUE) rfl rfl hs (fun _ => by simp only [writeFaslAux])
  | .fls, hs, _ => exact .of_const (t := tFALSE) rfl rfl hs (fun _ => by simp only [writeFaslAux])
  | .eof, hs, _ => exact .of_const (t := tEOF) rfl rfl hs (fun _ => by simp only [writeFaslAux])
  | .void, hs, _ => exact .of_const (t := tVOID) rfl rfl hs (fun _ => by simp only [writeFaslAux])
  | .emptyVec, hs, _ => exact .of_const (t := tEMPTYVEC) rfl rfl hs (fun _ => by simp only [writeFaslAux])
  | .baseRtd, hs, _ => exact .of_const (t := tBASERTD) rfl rfl hs (fun _ => by simp only [writeFaslAux])
  | .fix v, _, _ => exact .of_atom rfl rfl (fun _ => by simp only [writeFaslAux]) (reads_fix v) (Cut.fix v)
  | .vec es, hs, ht =>
    simp only [serialisable, Bool.and_eq_true, decide_eq_true_eq] at hs
    simp only [textFree] at ht
    obtain ⟨b, hb, hr, hc⟩ := goodCutList es hs.1 ht
    exact .of_atom rfl rfl (fun _ => by simp [writeFaslAux, hb]) (reads_vec hs.2 hr) (Cut.vec hs.2 hc)
  | .record r fs, hs, ht =>
    simp only [serialisable, Bool.and_eq_true, decide_eq_true_eq] at hs
    simp only [textFree, Bool.and_eq_true] at ht
    obtain ⟨bf, hbf, hf, hcf⟩ := goodCutList fs hs.1.2 ht.2
    obtain ⟨br, hbr, hr, hcr⟩ := (goodCut r hs.1.1 ht.1).1
    exact .of_atom rfl rfl (fun _ => by simp [writeFaslAux, hbf, hbr]) (reads_record hs.2 hr hf)
      (Cut.record hs.2 hr hcr hcf)
  | .pair a d, hs, ht =>
    simp only [serialisable, Bool.and_eq_true, decide_eq_true_eq] at hs
    simp only [textFree, Bool.and_eq_true] at ht
    obtain ⟨ba, hba, ha, hca⟩ := (goodCut a hs.1.1 ht.1).1
    obtain ⟨be, bt, hbd, he, hce, hrt, hct⟩ := (goodCut d hs.1.2 ht.2).2
    have he' := ReadsAsN.cons ha he
    have hce' := CutN.cons ha hca hce
    have hl : listLength (.pair a d) = (a :: spine d).length := by simp [listLength, spine_length]
    refine ⟨⟨_, ?_, reads_pair hs.2 he' hrt, ?_⟩, ⟨ba ++ be, bt, ?_, he', hce', hrt, hct⟩⟩
    · simp [writeFaslAux, hba, hbd]
    · rw [hl]
      exact Cut.pair (by simp [spine_length]; omega) (by simp) he' hce' hct
    · simp [writeFaslAux, hba, hbd]
theorem goodCutList (ds : List Datum) (hs : serialisableList ds = true) (ht : textFreeList ds = true) :
    ∃ b, writeFaslList ds = .ok b ∧ ReadsAsN b ds ∧ CutN b ds.length := by
  match ds, hs, ht with
  | [], _, _ => exact ⟨[], by simp [writeFaslList], ReadsAsN.nil, CutN.nil _⟩
  | d :: ds, hs, ht =>
    simp only [serialisableList, Bool.and_eq_true] at hs
    simp only [textFreeList, Bool.and_eq_true] at ht
    obtain ⟨b, hb, h, hc⟩ := (goodCut d hs.1 ht.1).1
    obtain ⟨bs, hbs, h', hc'⟩ := goodCutList ds hs.2 ht.2
    exact ⟨b ++ bs, by simp [writeFaslList, hb, hbs], ReadsAsN.cons h h', CutN.cons h hc hc'⟩
end

/-! ### Truncation in front of an object -/

/-- the parts of a compound object in the order they are written (specification, no source counterpart) -/
def parts : Datum → List Datum
  | .pair a d => (a :: spine d) ++ [spineEnd d]
  | .vec es => es
  | .record r fs => r :: fs
  | _ => []

/-- type byte and length field of a compound object (specification, no source counterpart) -/
def header : Datum → List Byte
  | .pair a d => tPAIR :: writeLen (listLength (.pair a d))
  | .vec es => tVECTOR :: writeLen es.length
  | .record _ fs => tRECORD :: writeLen fs.length
  | _ => []

/-- `CutAt d p`: the encoding of `d` cut in front of the type byte of `d` or of some object inside `d` is `p`
(specification, no source counterpart) -/
inductive CutAt : Datum → List Byte → Prop
  | start (d : Datum) : CutAt d []
  | inside {d pre e post bp p} : parts d = pre ++ e :: post → writeFaslList pre = .ok bp → CutAt e p →
      CutAt d (header d ++ (bp ++ p))

theorem serialisableList_append (xs ys : List Datum) :
    serialisableList (xs ++ ys) = (serialisableList xs && serialisableList ys) := by
  induction xs with
  | nil => simp [serialisableList]
  | cons x xs ih => simp [serialisableList, ih, Bool.and_assoc]

theorem serialisable_spine (d : Datum) (h : serialisable d = true) :
    serialisableList (spine d) = true ∧ serialisable (spineEnd d) = true := by
  fun_induction spine d with
  | case1 a d ih =>
    simp only [serialisable, Bool.and_eq_true] at h
    simp only [serialisableList, spineEnd, Bool.and_eq_true]
    exact ⟨⟨h.1.1, (ih h.1.2).1⟩, (ih h.1.2).2⟩
  | case2 d hd =>
    refine ⟨by simp [serialisableList], ?_⟩
    rw [spineEnd]
    · exact h
    · exact hd

theorem serialisable_parts (d : Datum) (h : serialisable d = true) : serialisableList (parts d) = true := by
  unfold parts
  split
  · rename_i a d
    have := serialisable_spine (.pair a d) h
    simp only [spine, spineEnd] at this
    rw [serialisableList_append, this.1]; simp [this.2, serialisableList]
  · simp only [serialisable, Bool.and_eq_true] at h; exact h.1
  · simp only [serialisable, Bool.and_eq_true] at h; simp [serialisableList, h.1]
  · simp [serialisableList]

theorem readN_err {p : List Byte} (hp : ∀ fuel, 2 * p.length + 3 ≤ fuel → readFaslAux fuel p = .err) :
    ∀ (pre : List Datum) (bp : List Byte), serialisableList pre = true → writeFaslList pre = .ok bp →
    ∀ n fuel, pre.length < n → 2 * (bp.length + p.length) + 4 ≤ fuel → readFaslN fuel n (bp ++ p) = .err := by
  intro pre
  induction pre with
  | nil =>
    intro bp _ hw n fuel hn hf
    simp only [writeFaslList, Res.ok.injEq] at hw; subst hw
    simp only [List.length_nil, List.nil_append] at *
    obtain ⟨n, rfl⟩ : ∃ m, n = m + 1 := ⟨n - 1, by omega⟩
    obtain ⟨fuel, rfl⟩ : ∃ m, fuel = m + 1 := ⟨fuel - 1, by omega⟩
    rw [readFaslN, hp fuel (by omega)]; rfl
  | cons d pre ih =>
    intro bp hs hw n fuel hn hf
    simp only [serialisableList, Bool.and_eq_true] at hs
    obtain ⟨b, hb, hr⟩ := (good d hs.1).1
    rw [writeFaslList, hb, Res.ok_bind] at hw
    obtain ⟨bs, hbs, hw⟩ := Res.bind_eq_ok.1 hw
    cases hw
    have := hr.1
    simp only [List.length_cons, List.length_append, List.append_assoc] at *
    obtain ⟨n, rfl⟩ : ∃ m, n = m + 1 := ⟨n - 1, by omega⟩
    obtain ⟨fuel, rfl⟩ : ∃ m, fuel = m + 1 := ⟨fuel - 1, by omega⟩
    rw [readFaslN, hr.2 fuel _ (by omega), Res.ok_bind]
    simp only
    rw [ih bs hs.2 hbs n fuel (by omega) (by omega)]; rfl

theorem append_cons_eq_append_single {α : Type} {xs pre post : List α} {y e : α}
    (h : xs ++ [y] = pre ++ e :: post) : (∃ post', xs = pre ++ e :: post') ∨ (xs = pre ∧ y = e) := by
  rcases List.append_eq_append_iff.1 h with ⟨a, h1, h2⟩ | ⟨c, h1, h2⟩
  · cases a with
    | nil => right; simp at h2; exact ⟨by simpa using h1.symm, h2.1⟩
    | cons a as => simp at h2
  · cases c with
    | nil => right; simp at h2; exact ⟨by simpa using h1, h2.1.symm⟩
    | cons c cs => left; simp at h2; exact ⟨cs, by rw [h1, h2.1]⟩

theorem cutAt_err {d : Datum} {p : List Byte} (hc : CutAt d p) : serialisable d = true →
    ∀ fuel, 2 * p.length + 3 ≤ fuel → readFaslAux fuel p = .err := by
  induction hc with
  | start d =>
    intro _ fuel hf
    obtain ⟨fuel, rfl⟩ : ∃ m, fuel = m + 1 := ⟨fuel - 1, by omega⟩
    exact readFaslAux_nil fuel
  | @inside d pre e post bp p hparts hw _ ih =>
    intro hs fuel hf
    have hsp := serialisable_parts d hs
    rw [hparts, serialisableList_append] at hsp
    simp only [serialisableList, Bool.and_eq_true] at hsp
    have hp := ih hsp.2.1
    have key := readN_err hp pre bp hsp.1 hw
    obtain ⟨fuel, rfl⟩ : ∃ m, fuel = m + 1 := ⟨fuel - 1, by omega⟩
    unfold parts at hparts
    split at hparts
    · rename_i a d
      simp only [serialisable, Bool.and_eq_true, decide_eq_true_eq] at hs
      have hl : listLength (.pair a d) = (a :: spine d).length := by simp [listLength, spine_length]
      have hn : listLength (.pair a d) < 2 ^ 63 := by simp only [listLength]; omega
      have h1n : 1 ≤ listLength (.pair a d) := by simp [listLength]
      simp only [header, List.cons_append, List.append_assoc, List.length_cons, List.length_append] at hf ⊢
      rw [readFaslAux_cons, readBody_pair, writeLen, readUptr_write, Res.ok_bind, pairCount_ofNat h1n hn]
      simp only
      rcases append_cons_eq_append_single hparts with ⟨post', h⟩ | ⟨h, he⟩
      · rw [key _ fuel ?_ (by omega)]
        · rfl
        · rw [hl, h]; simp
      · subst he
        obtain ⟨be, hbe, hre⟩ := goodList pre hsp.1
        rw [hbe] at hw; cases hw
        rw [hl, h, hre.2 fuel p (by omega), Res.ok_bind]
        simp only
        rw [hp fuel (by omega)]; rfl
    · simp only [serialisable, Bool.and_eq_true, decide_eq_true_eq] at hs
      simp only [header, List.cons_append, List.append_assoc, List.length_cons, List.length_append] at hf ⊢
      rw [readFaslAux_cons, readBody_vec, readLen_write hs.2, Res.ok_bind]
      simp only
      rw [key _ fuel ?_ (by omega)]
      · rfl
      · rw [hparts]; simp
    · rename_i r fs
      simp only [serialisable, Bool.and_eq_true, decide_eq_true_eq] at hs
      simp only [header, List.cons_append, List.append_assoc, List.length_cons, List.length_append] at hf ⊢
      rw [readFaslAux_cons, readBody_record, readLen_write hs.2, Res.ok_bind]
      simp only
      cases pre with
      | nil =>
        simp only [writeFaslList, Res.ok.injEq] at hw; subst hw
        simp only [List.nil_append, List.length_nil] at hf ⊢
        rw [hp fuel (by omega)]; rfl
      | cons r' pre =>
        injection hparts with e1 e2
        subst e1
        simp only [serialisableList, Bool.and_eq_true] at hsp
        obtain ⟨b, hb, hr⟩ := (good r hsp.1.1).1
        rw [writeFaslList, hb, Res.ok_bind] at hw
        obtain ⟨bs, hbs, hw⟩ := Res.bind_eq_ok.1 hw
        cases hw
        simp only [List.length_append, List.append_assoc] at hf ⊢
        have := hr.1
        rw [hr.2 fuel _ (by omega), Res.ok_bind]
        simp only
        rw [readN_err hp pre bs hsp.1.2 hbs _ fuel ?_ (by omega)]
        · rfl
        · rw [e2]; simp
    · simp at hparts

theorem res_bind_assoc {α β γ : Type} (x : Res α) (f : α → Res β) (g : β → Res γ) :
    (x >>= f) >>= g = x >>= fun a => f a >>= g := by cases x <;> rfl

theorem writeFaslList_append (xs ys : List Datum) : writeFaslList (xs ++ ys) =
    writeFaslList xs >>= fun a => writeFaslList ys >>= fun b => .ok (a ++ b) := by
  induction xs with
  | nil => simp only [List.nil_append, writeFaslList, Res.ok_bind]; cases writeFaslList ys <;> rfl
  | cons x xs ih =>
    simp only [List.cons_append, writeFaslList, ih]
    cases writeFaslAux false x <;> try rfl
    simp only [Res.ok_bind]
    cases writeFaslList xs <;> try rfl
    simp only [Res.ok_bind, Res.pure_eq]
    cases writeFaslList ys <;> simp

theorem write_tail (d : Datum) : writeFaslAux true d = writeFaslList (spine d ++ [spineEnd d]) := by
  fun_induction spine d with
  | case1 a d ih =>
    simp only [writeFaslAux, List.cons_append, writeFaslList, spineEnd, ih]
    cases writeFaslAux false a <;> try rfl
  | case2 d hd =>
    have : spineEnd d = d := by cases d <;> first | rfl | exact absurd rfl (hd _ _)
    rw [this]
    have : writeFaslAux true d = writeFaslAux false d := by
      cases d <;> first | exact absurd rfl (hd _ _) | simp only [writeFaslAux]
    rw [this]
    simp only [List.nil_append, writeFaslList, Res.ok_bind]
    cases writeFaslAux false d <;> simp

theorem write_parts (d : Datum) (hp : parts d ≠ []) :
    writeFaslAux false d = writeFaslList (parts d) >>= fun b => .ok (header d ++ b) := by
  unfold parts at *
  split
  · rename_i a d
    simp only [writeFaslAux, List.cons_append, writeFaslList, write_tail, header]
    cases writeFaslAux false a <;> try rfl
    simp only [Res.ok_bind]
    cases writeFaslList (spine d ++ [spineEnd d]) <;> simp
  · rename_i es
    simp only [writeFaslAux, header]
    cases writeFaslList es <;> simp
  · rename_i r fs
    simp only [writeFaslAux, header, writeFaslList]
    cases writeFaslAux false r <;> try rfl
    simp only [Res.ok_bind]
    cases writeFaslList fs <;> simp
  · rename_i h1 h2 h3
    split at hp
    · exact absurd rfl (h1 _ _)
    · exact absurd rfl (h2 _)
    · exact absurd rfl (h3 _ _)
    · exact absurd rfl hp

theorem cutAt_prefix {d : Datum} {p : List Byte} (hc : CutAt d p) : serialisable d = true →
    ∃ q, q ≠ [] ∧ writeFasl d = .ok (p ++ q) := by
  induction hc with
  | start d =>
    intro hs
    obtain ⟨b, hb, hr⟩ := (good d hs).1
    refine ⟨b, ?_, hb⟩
    intro h; have := hr.1; rw [h] at this; simp at this
  | @inside d pre e post bp p hparts hw _ ih =>
    intro hs
    have hsp := serialisable_parts d hs
    rw [hparts, serialisableList_append] at hsp
    simp only [serialisableList, Bool.and_eq_true] at hsp
    obtain ⟨q, hq, he⟩ := ih hsp.2.1
    obtain ⟨bs, hbs, _⟩ := goodList post hsp.2.2
    refine ⟨q ++ bs, by simp [hq], ?_⟩
    unfold writeFasl at *
    rw [write_parts d (by rw [hparts]; simp), hparts, writeFaslList_append, hw]
    simp only [writeFaslList, he, hbs, Res.ok_bind, Res.pure_eq, List.append_assoc]

mutual
/-- something `fasl-write` rejects occurs inside (specification predicate, no source counterpart) -/
def hasOther : Datum → Bool
  | .other _ => true
  | .pair a d => hasOther a || hasOther d
  | .vec es => hasOtherList es
  | .record r fs => hasOther r || hasOtherList fs
  | _ => false
/-- see `hasOther` -/
def hasOtherList : List Datum → Bool
  | [] => false
  | d :: ds => hasOther d || hasOtherList ds
end

mutual
theorem write_accepts (t : Bool) (d : Datum) :
    (hasOther d = true → writeFaslAux t d = .err) ∧ (hasOther d = false → ∃ b, writeFaslAux t d = .ok b) := by
  match d with
  | .null | .tru | .fls | .eof | .void | .emptyVec | .baseRtd | .sym _ | .str _ | .fix _ | .chr _ =>
    simp [hasOther, writeFaslAux]
  | .other _ => simp [hasOther, writeFaslAux]
  | .pair a d =>
    have ha := write_accepts false a
    have hd := write_accepts true d
    cases h1 : hasOther a with
    | true => simp [hasOther, writeFaslAux, h1, ha.1 h1]
    | false =>
      obtain ⟨ba, hba⟩ := ha.2 h1
      cases h2 : hasOther d with
      | true => simp [hasOther, writeFaslAux, h1, h2, hba, hd.1 h2]
      | false => obtain ⟨bd, hbd⟩ := hd.2 h2; simp [hasOther, writeFaslAux, h1, h2, hba, hbd]
  | .vec es =>
    have he := write_acceptsList es
    cases h2 : hasOtherList es with
    | true => simp [hasOther, writeFaslAux, h2, he.1 h2]
    | false => obtain ⟨bd, hbd⟩ := he.2 h2; simp [hasOther, writeFaslAux, h2, hbd]
  | .record r fs =>
    have ha := write_accepts false r
    have hd := write_acceptsList fs
    cases h1 : hasOther r with
    | true => simp [hasOther, writeFaslAux, h1, ha.1 h1]
    | false =>
      obtain ⟨ba, hba⟩ := ha.2 h1
      cases h2 : hasOtherList fs with
      | true => simp [hasOther, writeFaslAux, h1, h2, hba, hd.1 h2]
      | false => obtain ⟨bd, hbd⟩ := hd.2 h2; simp [hasOther, writeFaslAux, h1, h2, hba, hbd]
theorem write_acceptsList (ds : List Datum) :
    (hasOtherList ds = true → writeFaslList ds = .err) ∧ (hasOtherList ds = false → ∃ b, writeFaslList ds = .ok b) := by
  match ds with
  | [] => simp [hasOtherList, writeFaslList]
  | d :: ds =>
    have ha := write_accepts false d
    have hd := write_acceptsList ds
    cases h1 : hasOther d with
    | true => simp [hasOtherList, writeFaslList, h1, ha.1 h1]
    | false =>
      obtain ⟨ba, hba⟩ := ha.2 h1
      cases h2 : hasOtherList ds with
      | true => simp [hasOtherList, writeFaslList, h1, h2, hba, hd.1 h2]
      | false => obtain ⟨bd, hbd⟩ := hd.2 h2; simp [hasOtherList, writeFaslList, h1, h2, hba, hbd]
end

end Minim.Fasl
