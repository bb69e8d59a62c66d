import Verif.Str
import Verif.NumProps
import Mathlib.Data.List.Forall2

set_option autoImplicit false

/-! # Properties of strings, characters and vectors (C31, C32, C34, C35, C71) -/

namespace Minim.Str

/-! ### specification -/

/-- `v` is a string with text `t`: the bytes before the first NUL of its block (specification) -/
def Text (h : Heap) (v : Val) (t : List Byte) : Prop :=
  ∃ a rest, v = .str a ∧ h[a]? = some (.buf (t ++ 0#8 :: rest)) ∧ 0#8 ∉ t

theorem strlen_text : ∀ (t rest : List Byte), 0#8 ∉ t → strlen (t ++ 0#8 :: rest) = .ok t.length
  | [], rest, _ => by simp [strlen]
  | b :: t, rest, h => by
    have h1 : b ≠ 0#8 := fun e => h (by simp [e])
    have h2 := strlen_text t rest (fun e => h (by simp [e]))
    rw [List.cons_append, strlen, if_neg h1, h2]; rfl

theorem split_nul : ∀ (bs : List Byte), 0#8 ∈ bs → ∃ t rest, bs = t ++ 0#8 :: rest ∧ 0#8 ∉ t
  | b :: bs, h => by
    by_cases hb : b = 0#8
    · exact ⟨[], bs, by simp [hb], by simp⟩
    · obtain ⟨t, rest, h1, h2⟩ := split_nul bs (by rcases List.mem_cons.1 h with h | h; exact absurd h.symm hb; exact h)
      exact ⟨b :: t, rest, by simp [h1], by simp only [List.mem_cons, not_or]; exact ⟨fun e => hb e.symm, h2⟩⟩

theorem cstr_text (t rest : List Byte) (h : 0#8 ∉ t) : cstr (t ++ 0#8 :: rest) = t := by
  induction t with
  | nil => simp [cstr]
  | cons b t ih =>
    have h1 : b ≠ 0#8 := fun e => h (by simp [e])
    have h2 := ih (fun e => h (by simp [e]))
    unfold cstr at h2 ⊢
    rw [List.cons_append, List.takeWhile_cons, h2]
    simp [h1]

theorem Text.unique {h : Heap} {v : Val} {t u : List Byte} (h1 : Text h v t) (h2 : Text h v u) : t = u := by
  obtain ⟨a, r, rfl, e1, n1⟩ := h1
  obtain ⟨b, r', e, e2, n2⟩ := h2
  cases e
  rw [e1] at e2
  simp only [Option.some.injEq, Obj.buf.injEq] at e2
  rw [← cstr_text t r n1, ← cstr_text u r' n2, e2]

theorem bufOf_eq {h : Heap} {a : Nat} {bs : List Byte} (e : h[a]? = some (.buf bs)) : bufOf h a = .ok bs := by simp [bufOf, e]

theorem stringLength_text {h : Heap} {a : Nat} {t rest : List Byte} (e : h[a]? = some (.buf (t ++ 0#8 :: rest))) (hn : 0#8 ∉ t) :
    stringLength h a = .ok t.length := by
  rw [stringLength, bufOf_eq e, Res.ok_bind, strlen_text t rest hn]

theorem nonNeg_iff (w : Word) : nonNeg w = true ↔ w.toNat < 2 ^ 63 := by
  rw [nonNeg, BitVec.sle_iff_toInt_le]
  have := BitVec.toInt_eq_toNat_cond w
  have h2 := w.isLt
  have h0 : (0#64 : Word).toInt = 0 := by decide
  rw [h0]
  split at this <;> omega

theorem slt_zero_iff (w : Word) : w.slt 0#64 = true ↔ ¬ w.toNat < 2 ^ 63 := by
  rw [BitVec.slt_iff_toInt_lt]
  have := BitVec.toInt_eq_toNat_cond w
  have h2 := w.isLt
  have h0 : (0#64 : Word).toInt = 0 := by decide
  rw [h0]
  split at this <;> omega

theorem slt_zero_false {w : Word} (h : w.toNat < 2 ^ 63) : w.slt 0#64 = false := by
  rw [Bool.eq_false_iff]; intro e; exact (slt_zero_iff w).1 e h

/-! ## C35 -/

/-- C35, `string-length` -/
theorem C35_length {h : Heap} {v : Val} {t : List Byte} (ht : Text h v t) : pStringLength h v = .ok t.length := by
  obtain ⟨a, rest, rfl, e, hn⟩ := ht
  exact stringLength_text e hn


/-- C34/C35, `string-ref`: the character at the index, an error if there is none. -/
theorem C35_ref {h : Heap} {v : Val} {t : List Byte} (ht : Text h v t) (hl : t.length < 2 ^ 63) (i : Word) :
    pStringRef h v (.num i) = match t[i.toNat]? with | some b => .ok (.char b) | none => .err := by
  obtain ⟨a, rest, rfl, e, hn⟩ := ht
  rw [pStringRef]
  by_cases hi : i.toNat < 2 ^ 63
  · rw [if_pos ((nonNeg_iff i).2 hi), stringLength_text e hn, Res.ok_bind]
    by_cases hlt : i.toNat < t.length
    · rw [if_neg (by omega), stringRef, bufOf_eq e, Res.ok_bind, if_neg (by rw [slt_zero_false hi]; simp),
        List.getElem?_append_left hlt, List.getElem?_eq_getElem hlt]
      rfl
    · rw [if_pos (by omega), List.getElem?_eq_none (by omega)]
  · rw [if_neg (fun hh => hi ((nonNeg_iff i).1 hh)), List.getElem?_eq_none (by omega)]

theorem toNat_ofNat64 {n : Nat} (h : n < 2 ^ 63) : (BitVec.ofNat 64 n).toNat = n := by
  rw [BitVec.toNat_ofNat]; exact Nat.mod_eq_of_lt (by omega)

theorem get_at {α : Type} (l r : List α) (x : α) : (l ++ x :: r)[l.length]? = some x := by simp

theorem set_at {α : Type} (l r : List α) (x y : α) : (l ++ x :: r).set l.length y = l ++ y :: r := by simp

/-- storing a character in place of one of the text -/
theorem pStringSet_at {h : Heap} {s : Nat} {done rest : List Byte} {x c : Byte} (e : h[s]? = some (.buf (done ++ x :: rest)))
    (hd : 0#8 ∉ done) (hx : x ≠ 0#8) (hr : 0#8 ∈ rest) (hl : done.length < 2 ^ 63) :
    pStringSet h (.str s) (.num (BitVec.ofNat 64 done.length)) (.char c) = .ok (h.set s (.buf (done ++ c :: rest))) := by
  obtain ⟨r1, r2, rfl, hr1⟩ := split_nul rest hr
  have e' : h[s]? = some (.buf ((done ++ x :: r1) ++ 0#8 :: r2)) := by rw [e]; simp
  have hn : 0#8 ∉ done ++ x :: r1 := by
    simp only [List.mem_append, List.mem_cons, not_or]
    exact ⟨hd, fun q => hx q.symm, hr1⟩
  rw [pStringSet, if_pos ((nonNeg_iff _).2 (by rw [toNat_ofNat64 hl]; exact hl)), stringLength_text e' hn, Res.ok_bind,
    toNat_ofNat64 hl, if_neg (by simp)]
  show stringSet h s (BitVec.ofNat 64 done.length) c = _
  rw [stringSet, bufOf_eq e, Res.ok_bind, if_neg (by rw [slt_zero_false (by rw [toNat_ofNat64 hl]; exact hl)]; simp),
    toNat_ofNat64 hl, if_pos (by simp), set_at]
  rfl

/-- C34/C35, `string-set!`: the character at the index is replaced; an index outside the text or something that is no
character is an error; nothing else changes. -/
theorem C35_set {h : Heap} {a : Nat} {t rest : List Byte} (e : h[a]? = some (.buf (t ++ 0#8 :: rest))) (hn : 0#8 ∉ t)
    (hl : t.length < 2 ^ 63) (i : Word) (x : Val) :
    (∀ c, x = .char c → i.toNat < t.length →
      pStringSet h (.str a) (.num i) x = .ok (h.set a (.buf (t.set i.toNat c ++ 0#8 :: rest)))) ∧
    (t.length ≤ i.toNat ∨ x.isChar = false → pStringSet h (.str a) (.num i) x = .err) := by
  constructor
  · rintro c rfl hi
    have h1 : i = BitVec.ofNat 64 (t.take i.toNat).length := by
      rw [List.length_take, Nat.min_eq_left (by omega)]; simp
    have h2 : t = t.take i.toNat ++ t[i.toNat] :: t.drop (i.toNat + 1) := by
      rw [List.cons_getElem_drop_succ, List.take_append_drop]
    have e' : h[a]? = some (.buf (t.take i.toNat ++ t[i.toNat] :: (t.drop (i.toNat + 1) ++ 0#8 :: rest))) := by
      rw [e]
      have h3 := congrArg (fun l => l ++ 0#8 :: rest) h2
      simp only [List.append_assoc, List.cons_append] at h3
      rw [← h3]
    have := pStringSet_at (c := c) e' (fun hm => hn (List.mem_of_mem_take hm)) (fun q => hn (by rw [← q]; exact List.getElem_mem hi))
      (by simp) (by rw [List.length_take]; omega)
    rw [← h1] at this
    rw [this, List.set_eq_take_append_cons_drop (l := t), if_pos hi]
    simp
  · intro hc
    simp only [pStringSet]
    by_cases hi : nonNeg i = true
    · rw [if_pos hi, stringLength_text e hn, Res.ok_bind]
      by_cases hlt : t.length ≤ i.toNat
      · rw [if_pos hlt]
      · rw [if_neg hlt]
        rcases hc with hc | hc
        · exact absurd hc hlt
        · cases x <;> first | (simp [Val.isChar] at hc; done) | rfl
    · rw [if_neg hi]

/-- C35: after `string-set!` with a character other than NUL, `string-ref` finds it, and every other index is unchanged. -/
theorem C35_set_ref {h h' : Heap} {a : Nat} {t rest : List Byte} {c : Byte} (e : h[a]? = some (.buf (t ++ 0#8 :: rest)))
    (hn : 0#8 ∉ t) (hl : t.length < 2 ^ 63) (hc : c ≠ 0#8) (i : Word)
    (hs : pStringSet h (.str a) (.num i) (.char c) = .ok h') (j : Word) :
    Text h' (.str a) (t.set i.toNat c) ∧ pStringRef h' (.str a) (.num i) = .ok (.char c) ∧
      (j ≠ i → pStringRef h' (.str a) (.num j) = pStringRef h (.str a) (.num j)) := by
  have hi : i.toNat < t.length := by
    by_contra hi
    rw [(C35_set e hn hl i (.char c)).2 (Or.inl (by omega))] at hs; cases hs
  rw [(C35_set e hn hl i (.char c)).1 c rfl hi] at hs
  injection hs with hs
  subst hs
  have hlen : a < h.length := (List.getElem?_eq_some_iff.1 e).1
  have ht : Text (h.set a (.buf (t.set i.toNat c ++ 0#8 :: rest))) (.str a) (t.set i.toNat c) := by
    refine ⟨a, rest, rfl, by simp [hlen], fun hm => ?_⟩
    rcases List.mem_or_eq_of_mem_set hm with hm | hm
    · exact hn hm
    · exact hc hm.symm
  refine ⟨ht, ?_, fun hj => ?_⟩
  · rw [C35_ref ht (by simpa using hl), List.getElem?_set_self hi]
  · have : i.toNat ≠ j.toNat := fun q => hj (BitVec.eq_of_toNat_eq q).symm
    rw [C35_ref ht (by simpa using hl), C35_ref ⟨a, rest, rfl, e, hn⟩ hl, List.getElem?_set_ne this]

/-- C35, negated part: NUL is an ordinary character for `string-set!`, but the string then ends there. -/
theorem C35_negated_nul : ∃ h h' : Heap, pStringSet h (.str 0) (.num 0#64) (.char 0#8) = .ok h' ∧
    pStringLength h (.str 0) = .ok 2 ∧ pStringLength h' (.str 0) = .ok 0 ∧ pStringRef h' (.str 0) (.num 1#64) = .err :=
  ⟨[.buf [97#8, 98#8, 0#8]], [.buf [0#8, 98#8, 0#8]], by decide, by decide, by decide, by decide⟩

/-- `Mstring2` for lengths that fit -/
theorem mstring2_eq (h : Heap) {len : Word} (hl : len.toNat + 1 < 2 ^ 63) (c : Byte) :
    mstring2 h len c = .ok (h ++ [.buf (List.replicate len.toNat c ++ [0#8])], .str h.length) := by
  have h1 : len.toInt = len.toNat := by
    rw [BitVec.toInt_eq_toNat_cond]; rw [if_pos (by omega)]
  have h2 : (1#64 : Word).toInt = 1 := by decide
  obtain ⟨r, hr, _⟩ := (Num.C21_add len 1#64).1 (by rw [h1, h2]; unfold Num.Fits; omega)
  rw [mstring2, hr, Res.ok_bind, if_neg (by rw [slt_zero_false (by omega)]; simp)]
  rfl

/-- C35, `make-string` with a character other than NUL; existing objects are unchanged. -/
theorem C35_make_string (h : Heap) (n : Word) (c : Byte) (hn : n.toNat + 1 < 2 ^ 63) (hc : c ≠ 0#8) :
    ∃ h' v, pMakeString h (.num n) (.char c) = .ok (h', v) ∧ Text h' v (List.replicate n.toNat c) ∧
      (∀ a < h.length, h'[a]? = h[a]?) := by
  refine ⟨_, _, by rw [pMakeString, if_pos ((nonNeg_iff n).2 (by omega)), mstring2_eq h hn], ⟨h.length, [], rfl, by simp, ?_⟩,
    fun a ha => by rw [List.getElem?_append_left ha]⟩
  intro hm; exact hc (List.eq_of_mem_replicate hm).symm

/-- C35, negated part: `(make-string n #\nul)` has length 0 -/
theorem C35_negated_make_nul (h : Heap) (n : Word) (hn : n.toNat + 1 < 2 ^ 63) :
    ∃ h' v, pMakeString h (.num n) (.char 0#8) = .ok (h', v) ∧ pStringLength h' v = .ok 0 := by
  refine ⟨_, _, by rw [pMakeString, if_pos ((nonNeg_iff n).2 (by omega)), mstring2_eq h hn], ?_⟩
  have : Text (h ++ [.buf (List.replicate n.toNat 0#8 ++ [0#8])]) (.str h.length) [] := by
    cases hk : n.toNat with
    | zero => exact ⟨h.length, [], rfl, by simp, by simp⟩
    | succ k => exact ⟨h.length, List.replicate k 0#8 ++ [0#8], rfl, by simp [List.replicate_succ], by simp⟩
  exact C35_length this

/-! ### string-append -/

/-- the text of the object at an address -/
def TextAt (h : Heap) (a : Nat) (t : List Byte) : Prop := ∃ rest, h[a]? = some (.buf (t ++ 0#8 :: rest)) ∧ 0#8 ∉ t

theorem TextAt.text {h : Heap} {a : Nat} {t : List Byte} (x : TextAt h a t) : Text h (.str a) t := by
  obtain ⟨r, e, n⟩ := x; exact ⟨a, r, rfl, e, n⟩

theorem TextAt.set {h : Heap} {a s : Nat} {t : List Byte} (x : TextAt h a t) (hs : a ≠ s) (o : Obj) : TextAt (h.set s o) a t := by
  obtain ⟨r, e, n⟩ := x; exact ⟨r, by rw [List.getElem?_set_ne (Ne.symm hs)]; exact e, n⟩

theorem set_self' {h : Heap} {s : Nat} {o : Obj} (e : h[s]? = some o) : h.set s o = h := by
  apply List.ext_getElem?
  intro i
  rw [List.getElem?_set]
  split
  · rename_i hi; subst hi
    rw [if_pos (List.getElem?_eq_some_iff.1 e).1, e]
  · rfl

theorem appendLoop_spec (s : Nat) : ∀ (n : Nat) (h : Heap) (as : List Nat) (ts : List (List Byte)) (done : List Byte) (j : Nat),
    List.Forall₂ (fun a t => a ≠ s ∧ TextAt h a t) as ts → (∀ t us, ts = t :: us → j ≤ t.length) →
    h[s]? = some (.buf (done ++ (List.replicate ((ts.flatten).length - j) 48#8 ++ [0#8]))) → 0#8 ∉ done →
    ts.flatten.length < 2 ^ 63 → done.length + (ts.flatten.length - j) < 2 ^ 63 → (ts.flatten).length - j + as.length < n →
    appendLoop s n h as done.length j = .ok (h.set s (.buf (done ++ ((ts.flatten).drop j ++ [0#8])))) := by
  intro n
  induction n with
  | zero => intro h as ts done j _ _ _ _ _ _ hn; omega
  | succ n ih =>
    intro h as ts done j hf hj hs hd hl hl2 hn
    cases hf with
    | nil =>
      rw [appendLoop]
      simp only [List.flatten_nil, List.length_nil, Nat.zero_sub, List.replicate_zero, List.nil_append, List.drop_nil] at hs ⊢
      rw [set_self' hs]
    | cons hx hf =>
      rename_i a t as ts
      obtain ⟨hne, rest, ea, hnt⟩ := hx
      have hj' := hj t ts rfl
      rw [appendLoop, stringLength_text ea hnt, Res.ok_bind]
      simp only [List.flatten_cons, List.length_append, List.length_cons] at hs hl hl2 hn ⊢
      by_cases hjt : t.length ≤ j
      · have hjt : j = t.length := by omega
        subst hjt
        rw [if_pos (by omega), ih h as ts done 0 hf (fun _ _ _ => by omega) (by rw [hs]; simp) hd (by omega) (by omega) (by omega)]
        simp
      · rw [if_neg hjt]
        have hlt : j < t.length := by omega
        rw [C35_ref ⟨a, rest, rfl, ea, hnt⟩ (by omega), toNat_ofNat64 (by omega), List.getElem?_eq_getElem hlt]
        simp only [Res.ok_bind]
        have hk : t.length + ts.flatten.length - j = (t.length + ts.flatten.length - (j + 1)) + 1 := by omega
        rw [hk, List.replicate_succ, List.cons_append] at hs
        have hc : t[j] ≠ 0#8 := fun q => hnt (by rw [← q]; exact List.getElem_mem hlt)
        rw [pStringSet_at (c := t[j]) hs hd (by decide) (by simp) (by omega), Res.ok_bind]
        have hlen : s < h.length := (List.getElem?_eq_some_iff.1 hs).1
        have := ih (h.set s (.buf (done ++ t[j] :: (List.replicate (t.length + ts.flatten.length - (j + 1)) 48#8 ++ [0#8]))))
          (a :: as) (t :: ts) (done ++ [t[j]]) (j + 1)
          (.cons ⟨hne, (TextAt.set ⟨rest, ea, hnt⟩ hne _)⟩ (hf.imp (fun _ _ q => ⟨q.1, q.2.set q.1 _⟩)))
          (fun t' us q => by cases q; omega)
          (by simp [hlen])
          (by simp only [List.mem_append, List.mem_singleton, not_or]; exact ⟨hd, fun q => hc q.symm⟩)
          (by simp only [List.flatten_cons, List.length_append]; omega)
          (by simp only [List.flatten_cons, List.length_append, List.length_singleton]; omega)
          (by simp only [List.flatten_cons, List.length_append, List.length_cons]; omega)
        rw [List.length_append] at this
        simp only [List.length_singleton] at this
        rw [this, List.set_set]
        congr 3
        simp only [List.flatten_cons, List.append_assoc, List.cons_append, List.nil_append]
        congr 1
        rw [List.drop_append_of_le_length hlt, List.drop_append_of_le_length hj', List.append_assoc,
          List.append_assoc, ← List.cons_append, List.cons_getElem_drop_succ]

theorem sumLengths_spec {h : Heap} {as : List Nat} {ts : List (List Byte)} (hf : List.Forall₂ (TextAt h) as ts) :
    sumLengths h as = .ok ts.flatten.length := by
  induction hf with
  | nil => rfl
  | cons hx _ ih =>
    obtain ⟨r, e, n⟩ := hx
    rw [sumLengths, stringLength_text e n, Res.ok_bind, ih]
    simp

theorem addresses_texts {h : Heap} {vs : List Val} {ts : List (List Byte)} (hf : List.Forall₂ (Text h) vs ts) :
    ∃ as, addresses vs = some as ∧ List.Forall₂ (TextAt h) as ts := by
  induction hf with
  | nil => exact ⟨[], rfl, .nil⟩
  | cons hx _ ih =>
    obtain ⟨as, e, hf⟩ := ih
    obtain ⟨a, r, rfl, e', n⟩ := hx
    exact ⟨a :: as, by simp [addresses, e], .cons ⟨r, e', n⟩ hf⟩

/-- C35, `string-append`: the text of the result is the concatenation, no existing object changes. -/
theorem C35_append {h : Heap} {vs : List Val} {ts : List (List Byte)} {lit n : Nat} (hf : List.Forall₂ (Text h) vs ts)
    (hlit : Text h (.str lit) []) (hl : ts.flatten.length + 1 < 2 ^ 63) (hn : ts.flatten.length + vs.length < n) :
    ∃ h' v, pStringAppend n lit h vs = .ok (h', v) ∧ Text h' v ts.flatten ∧ ∀ a < h.length, h'[a]? = h[a]? := by
  obtain ⟨as, e, hfa⟩ := addresses_texts hf
  have hlen : as.length = vs.length := by rw [hfa.length_eq, hf.length_eq]
  have hsum := sumLengths_spec hfa
  rw [pStringAppend, e]
  match as, hfa with
  | [], .nil => exact ⟨h, .str lit, rfl, hlit, fun _ _ => rfl⟩
  | [a], .cons hx .nil => exact ⟨h, .str a, rfl, by simpa using hx.text, fun _ _ => rfl⟩
  | a :: b :: as, hfa =>
    simp only
    rw [hsum, Res.ok_bind, mstring2_eq h (by rw [toNat_ofNat64 (by omega)]; exact hl), Res.ok_bind, toNat_ofNat64 (by omega)]
    have hlt : ∀ {a t}, TextAt h a t → a < h.length := fun x => by
      obtain ⟨r, e, _⟩ := x; exact (List.getElem?_eq_some_iff.1 e).1
    have hx : ∀ {a t}, TextAt h a t → TextAt (h ++ [.buf (List.replicate ts.flatten.length 48#8 ++ [0#8])]) a t := fun x => by
      have := hlt x
      obtain ⟨r, e, n⟩ := x
      exact ⟨r, by rw [List.getElem?_append_left this]; exact e, n⟩
    have := appendLoop_spec h.length n (h ++ [.buf (List.replicate ts.flatten.length 48#8 ++ [0#8])]) (a :: b :: as) ts [] 0
      (hfa.imp (fun _ _ q => ⟨by have := hlt q; omega, hx q⟩)) (fun _ _ _ => by omega) (by simp) (by simp) (by omega)
      (by simp only [List.length_nil]; omega) (by rw [hlen]; omega)
    rw [List.length_nil] at this
    simp only [this, Res.ok_bind, Res.pure_eq, Res.ok.injEq, Prod.mk.injEq]
    refine ⟨_, _, ⟨rfl, rfl⟩, ⟨h.length, [], rfl, by simp, ?_⟩, fun a ha => ?_⟩
    · intro hm
      obtain ⟨t, ht, hm⟩ := List.mem_flatten.1 hm
      obtain ⟨i, hi, rfl⟩ := List.getElem_of_mem ht
      have := (List.forall₂_iff_get.1 hfa).2 i (by rw [hfa.length_eq]; exact hi) hi
      obtain ⟨_, _, n⟩ := this
      exact n (by simpa using hm)
    · rw [List.getElem?_set_ne (by omega), List.getElem?_append_left ha]

/-- C35: `string-append` with an argument that is no string is an error. -/
theorem C35_append_type {h : Heap} {vs : List Val} {v : Val} (hv : v ∈ vs) (hs : v.isStr = false) (n lit : Nat) :
    pStringAppend n lit h vs = .err := by
  have : addresses vs = none := by
    induction vs with
    | nil => cases hv
    | cons w vs ih =>
      rcases List.mem_cons.1 hv with rfl | hv
      · cases v <;> first | rfl | simp [Val.isStr] at hs
      · have := ih ‹_›
        cases w <;> simp [addresses, this]
  rw [pStringAppend, this]

/-! ### substring -/

theorem substringLoop_spec (a s stop : Nat) : ∀ (m : Nat) (h : Heap) (t done : List Byte) (n : Nat), a ≠ s → TextAt h a t →
    n ≤ stop → stop ≤ t.length → t.length < 2 ^ 63 → done.length ≤ n →
    h[s]? = some (.buf (done ++ (List.replicate (stop - n) 97#8 ++ [0#8]))) → 0#8 ∉ done → stop - n < m →
    substringLoop a s stop m h done.length n = .ok (h.set s (.buf (done ++ ((t.drop n).take (stop - n) ++ [0#8])))) := by
  intro m
  induction m with
  | zero => intro h t done n _ _ _ _ _ _ _ _ hm; omega
  | succ m ih =>
    intro h t done n hne ht hn hst hl hdn hs hd hm
    rw [substringLoop]
    by_cases heq : n = stop
    · subst heq
      rw [if_pos rfl, set_self']
      rw [hs]; simp
    · rw [if_neg heq]
      have hlt : n < t.length := by omega
      obtain ⟨rest, ea, hnt⟩ := ht
      rw [C35_ref ⟨a, rest, rfl, ea, hnt⟩ hl, toNat_ofNat64 (by omega), List.getElem?_eq_getElem hlt]
      simp only [Res.ok_bind]
      have hk : stop - n = (stop - (n + 1)) + 1 := by omega
      rw [hk, List.replicate_succ, List.cons_append] at hs
      have hc : t[n] ≠ 0#8 := fun q => hnt (by rw [← q]; exact List.getElem_mem hlt)
      rw [pStringSet_at (c := t[n]) hs hd (by decide) (by simp) (by omega), Res.ok_bind]
      have hlen : s < h.length := (List.getElem?_eq_some_iff.1 hs).1
      have := ih (h.set s (.buf (done ++ t[n] :: (List.replicate (stop - (n + 1)) 97#8 ++ [0#8])))) t (done ++ [t[n]]) (n + 1) hne
        (TextAt.set ⟨rest, ea, hnt⟩ hne _) (by omega) hst hl (by simp; omega) (by simp [hlen])
        (by simp only [List.mem_append, List.mem_singleton, not_or]; exact ⟨hd, fun q => hc q.symm⟩) (by omega)
      rw [List.length_append] at this
      simp only [List.length_singleton] at this
      rw [this, List.set_set, hk]
      congr 3
      rw [← List.cons_getElem_drop_succ (h := hlt), List.take_succ_cons]
      simp

/-- C35, `substring`: for indices with `start ≤ stop ≤ length` the text between them, in a new string; otherwise an error. -/
theorem C35_substring {h : Heap} {v : Val} {t : List Byte} (ht : Text h v t) (hl : t.length + 1 < 2 ^ 63) (start stop : Word) (m : Nat)
    (hm : t.length < m) :
    (start.toNat ≤ stop.toNat ∧ stop.toNat ≤ t.length →
      ∃ h' v', pSubstring m h v (.num start) (.num stop) = .ok (h', v') ∧
        Text h' v' ((t.drop start.toNat).take (stop.toNat - start.toNat)) ∧ ∀ a < h.length, h'[a]? = h[a]?) ∧
    (¬ (start.toNat ≤ stop.toNat ∧ stop.toNat ≤ t.length) → pSubstring m h v (.num start) (.num stop) = .err) := by
  obtain ⟨a, rest, rfl, ea, hnt⟩ := ht
  constructor
  · rintro ⟨h1, h2⟩
    have hsub : (stop - start).toNat = stop.toNat - start.toNat := by
      rw [BitVec.toNat_sub_of_le (BitVec.le_def.2 h1)]
    have hcond : (nonNeg start && nonNeg stop && decide (stop.toNat ≤ t.length) && decide (start.toNat ≤ stop.toNat)) = true := by
      rw [(nonNeg_iff start).2 (by omega), (nonNeg_iff stop).2 (by omega)]; simp [h1, h2]
    have halen : a < h.length := (List.getElem?_eq_some_iff.1 ea).1
    simp only [pSubstring]
    rw [stringLength_text ea hnt, Res.ok_bind, if_pos hcond, pMakeString, if_pos ((nonNeg_iff _).2 (by rw [hsub]; omega)),
      mstring2_eq h (by rw [hsub]; omega), Res.ok_bind, hsub]
    have := substringLoop_spec a h.length stop.toNat m (h ++ [.buf (List.replicate (stop.toNat - start.toNat) 97#8 ++ [0#8])]) t []
      start.toNat (by omega) ⟨rest, by rw [List.getElem?_append_left halen]; exact ea, hnt⟩ h1 h2 (by omega) (by simp) (by simp)
      (by simp) (by omega)
    rw [List.length_nil] at this
    simp only [this, Res.ok_bind, Res.pure_eq, Res.ok.injEq, Prod.mk.injEq]
    refine ⟨_, _, ⟨rfl, rfl⟩, ⟨h.length, [], rfl, by simp, ?_⟩, fun b hb => ?_⟩
    · intro hm'
      exact hnt (List.mem_of_mem_drop (List.mem_of_mem_take hm'))
    · rw [List.getElem?_set_ne (by omega), List.getElem?_append_left hb]
  · intro hc
    simp only [pSubstring]
    rw [stringLength_text ea hnt, Res.ok_bind, if_neg]
    intro hh
    simp only [Bool.and_eq_true, decide_eq_true_eq] at hh
    exact hc ⟨hh.2, hh.1.2⟩

/-- C35: arguments of other types are errors -/
theorem C35_substring_type {h : Heap} {v b e : Val} (hwf : ∀ a, v = .str a → ∃ t, TextAt h a t)
    (hv : v.isStr = false ∨ (∀ w, b ≠ .num w) ∨ (∀ w, e ≠ .num w)) (m : Nat) : pSubstring m h v b e = .err := by
  cases v with
  | str a =>
    obtain ⟨t, r, ea, n⟩ := hwf a rfl
    rcases hv with hv | hv | hv
    · simp [Val.isStr] at hv
    · cases b <;> first | (simp at hv; done) | simp [pSubstring, stringLength_text ea n]
    · cases e <;> first | (simp at hv; done) | (cases b <;> simp [pSubstring, stringLength_text ea n])
  | _ => cases b <;> cases e <;> rfl

example : ∃ h' v, pStringAppend 10 0 [.buf [0#8], .buf [97#8, 0#8, 7#8], .buf [98#8, 99#8, 0#8]] [.str 1, .str 2, .str 1] = .ok (h', v) ∧
    Text h' v [97#8, 98#8, 99#8, 97#8] ∧ ∀ a < 3, h'[a]? = [.buf [0#8], .buf [97#8, 0#8, 7#8], .buf [98#8, 99#8, 0#8]][a]? :=
  C35_append (ts := [[97#8], [98#8, 99#8], [97#8]])
    (.cons ⟨1, [7#8], rfl, rfl, by decide⟩ (.cons ⟨2, [], rfl, rfl, by decide⟩ (.cons ⟨1, [7#8], rfl, rfl, by decide⟩ .nil)))
    ⟨0, [], rfl, rfl, by decide⟩ (by decide) (by decide)

example : ∃ h' v', pSubstring 9 [.buf [97#8, 98#8, 99#8, 0#8]] (.str 0) (.num 1#64) (.num 3#64) = .ok (h', v') ∧
    Text h' v' [98#8, 99#8] ∧ ∀ a < 1, h'[a]? = [.buf [97#8, 98#8, 99#8, 0#8]][a]? :=
  (C35_substring ⟨0, [], rfl, rfl, by decide⟩ (t := [97#8, 98#8, 99#8]) (by decide) 1#64 3#64 9 (by decide)).1 (by decide)

example : Text [.buf [98#8, 0#8]] (.str 0) [98#8] ∧ pStringRef [.buf [98#8, 0#8]] (.str 0) (.num 0#64) = .ok (.char 98#8) :=
  ⟨⟨0, [], rfl, rfl, by decide⟩, by decide⟩

example : pStringSet [.buf [98#8, 0#8]] (.str 0) (.num 0#64) (.char 99#8) = .ok [.buf [99#8, 0#8]] := by decide

example : pMakeString [] (.num 2#64) (.char 99#8) = .ok ([.buf [99#8, 99#8, 0#8]], .str 0) := by decide

/-! ## C31 -/

theorem charBytes_map (bs : List Byte) : charBytes (bs.map .char) = .ok bs := by
  induction bs with
  | nil => rfl
  | cons b bs ih => rw [List.map_cons, charBytes, ih]; rfl

/-- what `string->list` returns: the text, followed by NUL -/
theorem C31_string_to_list {h : Heap} {v : Val} {t : List Byte} (ht : Text h v t) :
    pStringToList h v = .ok (t.map .char ++ [.char 0#8]) := by
  obtain ⟨a, rest, rfl, e, hn⟩ := ht
  rw [pStringToList, stringToList, bufOf_eq e, Res.ok_bind, strlen_text t rest hn, Res.ok_bind]
  rw [show t ++ 0#8 :: rest = (t ++ [0#8]) ++ rest by simp, List.take_append_of_le_length (by simp), List.take_of_length_le (by simp)]
  simp

/-- what `list->string` returns for characters other than NUL: a new string with this text -/
theorem C31_list_to_string (h : Heap) (t : List Byte) (hn : 0#8 ∉ t) :
    ∃ h' v, pListToString h (t.map .char) = .ok (h', v) ∧ Text h' v t ∧ ∀ a < h.length, h'[a]? = h[a]? := by
  refine ⟨h ++ [.buf (t ++ [0#8])], _, ?_, ⟨h.length, [], rfl, ?_, hn⟩, fun a ha => List.getElem?_append_left ha⟩
  · rw [pListToString, if_pos (by simp [Val.isChar]), listToString, charBytes_map]; rfl
  · simp

/-- C31, first law: `(list->string (string->list s))` has the text of `s`. -/
theorem C31_round_trip {h : Heap} {v : Val} {t : List Byte} (ht : Text h v t) :
    ∃ vs h' v', pStringToList h v = .ok vs ∧ pListToString h vs = .ok (h', v') ∧ Text h' v' t ∧ Text h' v t := by
  refine ⟨_, h ++ [.buf ((t ++ [0#8]) ++ [0#8])], _, C31_string_to_list ht, ?_, ⟨h.length, [0#8], rfl, ?_, ?_⟩, ?_⟩
  · rw [pListToString, if_pos (by simp [Val.isChar]), listToString,
      show t.map Val.char ++ [.char 0#8] = (t ++ [0#8]).map .char by simp, charBytes_map]; rfl
  · simp
  · obtain ⟨_, _, _, _, hn⟩ := ht; exact hn
  · obtain ⟨a, rest, rfl, e, hn⟩ := ht
    exact ⟨a, rest, rfl, by rw [List.getElem?_append_left (List.getElem?_eq_some_iff.1 e).1]; exact e, hn⟩

/-- C31, second law, negated for every list of characters other than NUL: `(string->list (list->string cs))` is never `cs`;
it is one element longer. -/
theorem C31_negated (h : Heap) (t : List Byte) (hn : 0#8 ∉ t) :
    ∃ h' v vs, pListToString h (t.map .char) = .ok (h', v) ∧ pStringToList h' v = .ok vs ∧ vs ≠ t.map .char ∧
      vs.length = t.length + 1 := by
  obtain ⟨h', v, e, ht, _⟩ := C31_list_to_string h t hn
  refine ⟨h', v, _, e, C31_string_to_list ht, fun q => ?_, by simp⟩
  have := congrArg List.length q
  simp at this

/-- C31, second law with the defect accounted for: without its last element the list is `cs`.  Missing: the law itself, which
fails (`C31_negated`). -/
theorem C31_partial (h : Heap) (t : List Byte) (hn : 0#8 ∉ t) :
    ∃ h' v vs, pListToString h (t.map .char) = .ok (h', v) ∧ pStringToList h' v = .ok vs ∧ vs.dropLast = t.map .char := by
  obtain ⟨h', v, e, ht, _⟩ := C31_list_to_string h t hn
  exact ⟨h', v, _, e, C31_string_to_list ht, by simp⟩

/-- C31: anything but a character in the list is an error. -/
theorem C31_list_to_string_type (h : Heap) {vs : List Val} {v : Val} (hv : v ∈ vs) (hc : v.isChar = false) : pListToString h vs = .err := by
  rw [pListToString, if_neg]
  intro hh
  rw [List.all_eq_true.1 hh v hv] at hc; cases hc

example : Text [.buf [104#8, 105#8, 0#8, 9#8]] (.str 0) [104#8, 105#8] := ⟨0, [9#8], rfl, rfl, by decide⟩
example : (0#8 : Byte) ∉ [104#8, 105#8] := by decide

/-! ## C32 -/

theorem natDigits_range (n : Nat) : ∀ b ∈ natDigits n, ∃ d, d < 10 ∧ b = BitVec.ofNat 8 (48 + d) := by
  induction n using Nat.strongRecOn with
  | _ n ih =>
    rw [natDigits]
    split
    · intro b hb
      exact ⟨n, by assumption, by simpa using hb⟩
    · intro b hb
      rcases List.mem_append.1 hb with hb | hb
      · exact ih (n / 10) (by omega) b hb
      · exact ⟨n % 10, by omega, by simpa using hb⟩

theorem digit_facts : ∀ d < 10, (48#8 ≤ BitVec.ofNat 8 (48 + d) && BitVec.ofNat 8 (48 + d) ≤ 57#8) = true ∧
    (BitVec.ofNat 8 (48 + d)).toNat - 48 = d ∧ isSpace (BitVec.ofNat 8 (48 + d)) = false ∧
    BitVec.ofNat 8 (48 + d) ≠ 0#8 ∧ BitVec.ofNat 8 (48 + d) ≠ 45#8 ∧ BitVec.ofNat 8 (48 + d) ≠ 43#8 := by decide

theorem digitsValue_digit (acc d : Nat) (hd : d < 10) (rest : List Byte) :
    digitsValue acc (BitVec.ofNat 8 (48 + d) :: rest) = digitsValue (acc * 10 + d) rest := by
  have := digit_facts d hd
  rw [digitsValue, if_pos this.1, this.2.1]

theorem digitsValue_natDigits (n : Nat) : ∀ (acc : Nat) (rest : List Byte),
    ∃ k, digitsValue acc (natDigits n ++ rest) = digitsValue (acc * 10 ^ k + n) rest := by
  induction n using Nat.strongRecOn with
  | _ n ih =>
    intro acc rest
    rw [natDigits]
    split
    · rename_i hn
      exact ⟨1, by rw [List.singleton_append, digitsValue_digit acc n hn]; simp⟩
    · obtain ⟨k, hk⟩ := ih (n / 10) (by omega) acc (BitVec.ofNat 8 (48 + n % 10) :: rest)
      refine ⟨k + 1, ?_⟩
      rw [List.append_assoc, List.singleton_append, hk, digitsValue_digit _ _ (by omega)]
      congr 1
      rw [Nat.pow_succ]
      have := Nat.div_add_mod n 10
      rw [Nat.add_mul, Nat.mul_assoc]
      omega

theorem natDigits_ne_nil (n : Nat) : natDigits n ≠ [] := by
  rw [natDigits]; split <;> simp

theorem natDigits_length (k : Nat) : ∀ n, n < 10 ^ (k + 1) → (natDigits n).length ≤ k + 1 := by
  induction k with
  | zero => intro n hn; rw [natDigits, if_pos (by simpa using hn)]; simp
  | succ k ih =>
    intro n hn
    rw [natDigits]
    split
    · simp
    · have := ih (n / 10) (by rw [Nat.pow_succ] at hn; omega)
      simp; omega

theorem natAbs_lt (w : Word) : w.toInt.natAbs < 10 ^ (18 + 1) := by
  have := Num.fits_toInt w
  unfold Num.Fits at this
  omega

theorem decimal_length (w : Word) : (decimal w.toInt).length + 1 ≤ 25 := by
  have := natDigits_length 18 _ (natAbs_lt w)
  unfold decimal
  split
  · simp; omega
  · omega

theorem decimal_nul (z : Int) : 0#8 ∉ decimal z := by
  have : 0#8 ∉ natDigits z.natAbs := by
    intro hm
    obtain ⟨d, hd, e⟩ := natDigits_range _ _ hm
    exact (digit_facts d hd).2.2.2.1 e.symm
  unfold decimal
  split
  · simp only [List.mem_cons, not_or]; exact ⟨by decide, this⟩
  · exact this

theorem signedValue_decimal (z : Int) : signedValue ((decimal z).dropWhile isSpace) = z := by
  have hv : digitsValue 0 (natDigits z.natAbs) = z.natAbs := by
    obtain ⟨k, hk⟩ := digitsValue_natDigits z.natAbs 0 []
    rw [List.append_nil] at hk
    rw [hk, digitsValue]; simp
  unfold decimal
  split
  · have : isSpace 45#8 = false := by decide
    rw [List.dropWhile_cons, this]
    simp only [Bool.false_eq_true, if_false]
    rw [signedValue, if_pos rfl, hv]; omega
  · obtain ⟨b, bs, e⟩ := List.exists_cons_of_ne_nil (natDigits_ne_nil z.natAbs)
    obtain ⟨d, hd, q⟩ := natDigits_range z.natAbs b (by rw [e]; simp)
    have hf := digit_facts d hd
    rw [← q] at hf
    rw [e, List.dropWhile_cons, hf.2.2.1]
    simp only [Bool.false_eq_true, if_false]
    rw [signedValue, if_neg hf.2.2.2.2.1, if_neg hf.2.2.2.2.2, ← e, hv]; omega

/-- C32: `number->string` never writes outside its block, its text consists of an optional minus sign and decimal digits
denoting the number, and no existing object changes. -/
theorem C32_number_to_string (h : Heap) (w : Word) :
    ∃ h' v ds, pNumberToString h (.num w) = .ok (h', v) ∧ Text h' v ((if w.toInt < 0 then [45#8] else []) ++ ds) ∧
      (∀ b ∈ ds, ∃ d, d < 10 ∧ b = BitVec.ofNat 8 (48 + d)) ∧ ds ≠ [] ∧
      ds.foldl (fun acc b => acc * 10 + (b.toNat - 48)) 0 = w.toInt.natAbs ∧ ∀ a < h.length, h'[a]? = h[a]? := by
  have hlen := decimal_length w
  have hdec : (if w.toInt < 0 then [45#8] else []) ++ natDigits w.toInt.natAbs = decimal w.toInt := by unfold decimal; split <;> simp
  refine ⟨_, _, natDigits w.toInt.natAbs, by rw [pNumberToString, numberToString, if_pos hlen], ?_, natDigits_range _, natDigits_ne_nil _,
    ?_, fun a ha => List.getElem?_append_left ha⟩
  · rw [hdec]
    refine ⟨h.length, List.replicate (24 - (decimal w.toInt).length) 0#8, rfl, ?_, decimal_nul _⟩
    rw [show 25 - (decimal w.toInt).length = (24 - (decimal w.toInt).length) + 1 by omega, List.replicate_succ]
    simp
  · have key : ∀ (ds : List Byte) (acc : Nat), (∀ b ∈ ds, ∃ d, d < 10 ∧ b = BitVec.ofNat 8 (48 + d)) →
        ds.foldl (fun acc b => acc * 10 + (b.toNat - 48)) acc = digitsValue acc ds := by
      intro ds
      induction ds with
      | nil => intro acc _; rfl
      | cons b ds ih =>
        intro acc hb
        obtain ⟨d, hd, rfl⟩ := hb b (by simp)
        rw [List.foldl_cons, digitsValue_digit acc d hd, (digit_facts d hd).2.1]
        exact ih _ (fun b' hb' => hb b' (by simp [hb']))
    rw [key _ _ (natDigits_range _)]
    obtain ⟨k, hk⟩ := digitsValue_natDigits w.toInt.natAbs 0 []
    rw [List.append_nil] at hk
    rw [hk, digitsValue]; simp

theorem number_string_number (h : Heap) (w : Word) :
    ∃ h' v, pNumberToString h (.num w) = .ok (h', v) ∧
      pStringToNumber h' v = (if -2147483648 ≤ w.toInt ∧ w.toInt ≤ 2147483647 then .ok (.num w) else .ub) := by
  have hlen := decimal_length w
  refine ⟨_, _, by rw [pNumberToString, numberToString, if_pos hlen], ?_⟩
  have e : decimal w.toInt ++ List.replicate (25 - (decimal w.toInt).length) 0#8 =
      decimal w.toInt ++ 0#8 :: List.replicate (24 - (decimal w.toInt).length) 0#8 := by
    rw [show 25 - (decimal w.toInt).length = (24 - (decimal w.toInt).length) + 1 by omega, List.replicate_succ]
  rw [pStringToNumber, stringToNumber, e, bufOf_eq (bs := decimal w.toInt ++ 0#8 :: List.replicate (24 - (decimal w.toInt).length) 0#8)
    (by simp), Res.ok_bind, strlen_text _ _ (decimal_nul _), Res.ok_bind, cstr_text _ _ (decimal_nul _), atoi]
  simp only [signedValue_decimal]
  split
  · rw [Res.ok_bind]; simp
  · rfl

/-- C32 for the numbers an `int` can hold: `(string->number (number->string n))` is `n`.  Missing: the other fixnums
(`C32_negated`). -/
theorem C32_partial (h : Heap) (w : Word) (hw : -2147483648 ≤ w.toInt ∧ w.toInt ≤ 2147483647) :
    ∃ h' v, pNumberToString h (.num w) = .ok (h', v) ∧ pStringToNumber h' v = .ok (.num w) := by
  obtain ⟨h', v, e1, e2⟩ := number_string_number h w
  exact ⟨h', v, e1, by rw [e2, if_pos hw]⟩

/-- C32, negated: for every other fixnum reading the text back is undefined behaviour. -/
theorem C32_negated (h : Heap) (w : Word) (hw : ¬ (-2147483648 ≤ w.toInt ∧ w.toInt ≤ 2147483647)) :
    ∃ h' v, pNumberToString h (.num w) = .ok (h', v) ∧ pStringToNumber h' v = .ub := by
  obtain ⟨h', v, e1, e2⟩ := number_string_number h w
  exact ⟨h', v, e1, by rw [e2, if_neg hw]⟩

/-- C32, second negated law: a text that is no number is not rejected, it is read as 0. -/
theorem C32_negated_garbage : ∃ h : Heap, Text h (.str 0) [97#8, 98#8] ∧ pStringToNumber h (.str 0) = .ok (.num 0#64) :=
  ⟨[.buf [97#8, 98#8, 0#8]], ⟨0, [], rfl, rfl, by decide⟩, by decide⟩

example : -2147483648 ≤ (BitVec.ofInt 64 (-42)).toInt ∧ (BitVec.ofInt 64 (-42)).toInt ≤ 2147483647 := by decide
example : ¬ (-2147483648 ≤ (2147483648#64).toInt ∧ (2147483648#64).toInt ≤ 2147483647) := by decide

/-! ## C71 -/

theorem char_round : ∀ c : Byte, (c.signExtend 64).setWidth 8 = c := by decide

/-- C71: `(integer->char (char->integer c))` is `c`. -/
theorem C71_char_integer_char (c : Byte) :
    ∃ n, pCharToInteger (.char c) = .ok (.num n) ∧ pIntegerToChar (.num n) = .ok (.char c) ∧ -128 ≤ n.toInt ∧ n.toInt ≤ 127 := by
  refine ⟨charToInteger c, rfl, ?_, ?_⟩
  · rw [pIntegerToChar, integerToChar, charToInteger, char_round]
  · rw [charToInteger, BitVec.toInt_signExtend_of_le (by omega)]
    have h1 := BitVec.le_toInt c
    have h2 := BitVec.toInt_lt (x := c)
    simp at h1 h2
    omega

/-- C71, converse for the values a `char` can hold.  Missing: the other integers (`C71_negated`). -/
theorem C71_partial (n : Word) (hn : -128 ≤ n.toInt ∧ n.toInt ≤ 127) :
    ∃ c, pIntegerToChar (.num n) = .ok (.char c) ∧ pCharToInteger (.char c) = .ok (.num n) := by
  refine ⟨integerToChar n, rfl, ?_⟩
  rw [pCharToInteger]
  congr 2
  apply BitVec.eq_of_toInt_eq
  rw [charToInteger, BitVec.toInt_signExtend_of_le (by omega), integerToChar, BitVec.toInt_setWidth]
  have h1 := BitVec.toInt_eq_toNat_bmod n
  have h2 : ((n.toNat : Int)).bmod (2 ^ 8) = n.toInt.bmod (2 ^ 8) := by
    rw [h1, Int.bmod_bmod_of_dvd (by decide)]
  rw [h2, Int.bmod_eq_of_le (by omega) (by omega)]

/-- C71, negated for every other fixnum: the character stands for a different number. -/
theorem C71_negated (n : Word) (hn : ¬ (-128 ≤ n.toInt ∧ n.toInt ≤ 127)) :
    ∃ c m, pIntegerToChar (.num n) = .ok (.char c) ∧ pCharToInteger (.char c) = .ok (.num m) ∧ m ≠ n := by
  refine ⟨integerToChar n, _, rfl, rfl, fun q => hn ?_⟩
  obtain ⟨m, e, _, h⟩ := C71_char_integer_char (integerToChar n)
  rw [pCharToInteger] at e
  injection e with e; injection e with e
  rw [← e, q] at h
  exact h

example : -128 ≤ (97#64).toInt ∧ (97#64).toInt ≤ 127 := by decide
example : ¬ (-128 ≤ (955#64).toInt ∧ (955#64).toInt ≤ 127) := by decide

/-! ## C34 -/

theorem vecOf_eq {h : Heap} {a : Nat} {es : List Val} (e : h[a]? = some (.vec es)) : vecOf h a = .ok es := by simp [vecOf, e]

/-- C34, `vector-ref`: the element at the index, an error if there is none. -/
theorem C34_vector_ref {h : Heap} {a : Nat} {es : List Val} (e : h[a]? = some (.vec es)) (hl : es.length < 2 ^ 63) (i : Word) :
    pVectorRef h (.vec a) (.num i) = match es[i.toNat]? with | some x => .ok x | none => .err := by
  rw [pVectorRef]
  by_cases hi : i.toNat < 2 ^ 63
  · rw [if_pos ((nonNeg_iff i).2 hi), vecOf_eq e, Res.ok_bind]
    by_cases hlt : i.toNat < es.length
    · rw [if_neg (by omega), vectorRef, vecOf_eq e, Res.ok_bind, if_neg (by rw [slt_zero_false hi]; simp),
        List.getElem?_eq_getElem hlt]
      rfl
    · rw [if_pos (by omega), List.getElem?_eq_none (by omega)]
  · rw [if_neg (fun hh => hi ((nonNeg_iff i).1 hh)), List.getElem?_eq_none (by omega)]

/-- C34, `vector-set!`: exactly the element at the index is replaced, an error if there is none. -/
theorem C34_vector_set {h : Heap} {a : Nat} {es : List Val} (e : h[a]? = some (.vec es)) (hl : es.length < 2 ^ 63) (i : Word) (x : Val) :
    pVectorSet h (.vec a) (.num i) x = if i.toNat < es.length then .ok (h.set a (.vec (es.set i.toNat x))) else .err := by
  rw [pVectorSet]
  by_cases hi : i.toNat < 2 ^ 63
  · rw [if_pos ((nonNeg_iff i).2 hi), vecOf_eq e, Res.ok_bind]
    by_cases hlt : i.toNat < es.length
    · rw [if_neg (by omega), vectorSet, vecOf_eq e, Res.ok_bind, if_neg (by rw [slt_zero_false hi]; simp)]
      simp only [if_pos hlt]
      rfl
    · rw [if_pos (by omega), if_neg hlt]
  · rw [if_neg (fun hh => hi ((nonNeg_iff i).1 hh)), if_neg (by omega)]

/-- C34: `make-vector` gives that many copies, `vector-fill!` replaces every element and keeps the length. -/
theorem C34_make_vector (h : Heap) (n : Word) (hn : n.toNat < 2 ^ 63) (x : Val) :
    ∃ h', pMakeVector h (.num n) x = .ok (h', .vec h.length) ∧ h'[h.length]? = some (.vec (List.replicate n.toNat x)) ∧
      ∀ a < h.length, h'[a]? = h[a]? := by
  refine ⟨_, by rw [pMakeVector, if_pos ((nonNeg_iff n).2 hn), mvector, if_neg (by rw [slt_zero_false hn]; simp)], by simp,
    fun a ha => List.getElem?_append_left ha⟩

theorem C34_vector_fill {h : Heap} {a : Nat} {es : List Val} (e : h[a]? = some (.vec es)) (x : Val) :
    ∃ h', pVectorFill h (.vec a) x = .ok h' ∧ h'[a]? = some (.vec (List.replicate es.length x)) ∧
      pVectorLength h' (.vec a) = pVectorLength h (.vec a) ∧ ∀ b, b ≠ a → h'[b]? = h[b]? := by
  have ha : a < h.length := (List.getElem?_eq_some_iff.1 e).1
  have h1 : (h.set a (.vec (es.map fun _ => x)))[a]? = some (.vec (List.replicate es.length x)) := by simp [ha]
  refine ⟨h.set a (.vec (es.map fun _ => x)), by rw [pVectorFill, vecOf_eq e]; rfl, h1, ?_, fun b hb => List.getElem?_set_ne (Ne.symm hb)⟩
  rw [pVectorLength, pVectorLength, vecOf_eq h1, vecOf_eq e]; simp

example : pVectorSet [.vec [.num 1#64, .char 98#8]] (.vec 0) (.num 1#64) (.str 7) = .ok [.vec [.num 1#64, .str 7]] := by decide

/-! ### programs -/

/-- a value refers to an object of its kind -/
def VOK (h : Heap) : Val → Prop
  | .str a => ∃ bs, h[a]? = some (.buf bs)
  | .vec a => ∃ es, h[a]? = some (.vec es)
  | _ => True

/-- an object is well formed: a string's block contains a NUL, the elements of a vector are well formed -/
def OOK (h : Heap) : Obj → Prop
  | .buf bs => 0#8 ∈ bs
  | .vec es => ∀ e ∈ es, VOK h e

/-- all objects are well formed -/
def WF (h : Heap) : Prop := ∀ o ∈ h, OOK h o

/-- what is a string or vector stays one -/
def Ext (h h' : Heap) : Prop := ∀ v, VOK h v → VOK h' v

theorem Ext.refl (h : Heap) : Ext h h := fun _ x => x
theorem Ext.trans {a b c : Heap} (x : Ext a b) (y : Ext b c) : Ext a c := fun v h => y v (x v h)

theorem OOK.mono {h h' : Heap} {o : Obj} (x : OOK h o) (e : Ext h h') : OOK h' o := by
  cases o with
  | buf bs => exact x
  | vec es => exact fun v hv => e v (x v hv)

theorem wf_append {h : Heap} {o : Obj} (hw : WF h) (ho : OOK h o) : WF (h ++ [o]) ∧ Ext h (h ++ [o]) := by
  have he : Ext h (h ++ [o]) := by
    intro v hv
    cases v <;> simp only [VOK] at hv ⊢
    all_goals
      obtain ⟨bs, e⟩ := hv
      exact ⟨bs, by rw [List.getElem?_append_left (List.getElem?_eq_some_iff.1 e).1]; exact e⟩
  refine ⟨fun q hq => ?_, he⟩
  rcases List.mem_append.1 hq with hq | hq
  · exact (hw q hq).mono he
  · rw [List.mem_singleton.1 hq]; exact ho.mono he

theorem wf_set_buf {h : Heap} {a : Nat} {bs bs' : List Byte} (hw : WF h) (e : h[a]? = some (.buf bs)) (hb : 0#8 ∈ bs') :
    WF (h.set a (.buf bs')) ∧ Ext h (h.set a (.buf bs')) := by
  have ha := (List.getElem?_eq_some_iff.1 e).1
  have he : Ext h (h.set a (.buf bs')) := by
    intro v hv
    cases v <;> simp only [VOK] at hv ⊢
    · rename_i b
      by_cases hab : a = b
      · subst hab; exact ⟨bs', by simp [ha]⟩
      · rw [List.getElem?_set_ne hab]; exact hv
    · rename_i b
      by_cases hab : a = b
      · subst hab; obtain ⟨es, e'⟩ := hv; rw [e] at e'; cases e'
      · rw [List.getElem?_set_ne hab]; exact hv
  refine ⟨fun q hq => ?_, he⟩
  rcases List.mem_or_eq_of_mem_set hq with hq | hq
  · exact (hw q hq).mono he
  · subst hq; exact hb

theorem wf_set_vec {h : Heap} {a : Nat} {es es' : List Val} (hw : WF h) (e : h[a]? = some (.vec es)) (hb : ∀ x ∈ es', VOK h x) :
    WF (h.set a (.vec es')) ∧ Ext h (h.set a (.vec es')) := by
  have ha := (List.getElem?_eq_some_iff.1 e).1
  have he : Ext h (h.set a (.vec es')) := by
    intro v hv
    cases v <;> simp only [VOK] at hv ⊢
    · rename_i b
      by_cases hab : a = b
      · subst hab; obtain ⟨es, e'⟩ := hv; rw [e] at e'; cases e'
      · rw [List.getElem?_set_ne hab]; exact hv
    · rename_i b
      by_cases hab : a = b
      · subst hab; exact ⟨es', by simp [ha]⟩
      · rw [List.getElem?_set_ne hab]; exact hv
  refine ⟨fun q hq => ?_, he⟩
  rcases List.mem_or_eq_of_mem_set hq with hq | hq
  · exact (hw q hq).mono he
  · subst hq; exact fun x hx => he x (hb x hx)

theorem wf_text {h : Heap} {a : Nat} (hw : WF h) (hv : VOK h (.str a)) : ∃ t rest, h[a]? = some (.buf (t ++ 0#8 :: rest)) ∧ 0#8 ∉ t := by
  obtain ⟨bs, e⟩ := hv
  obtain ⟨t, rest, rfl, hn⟩ := split_nul bs (hw _ (List.mem_of_getElem? e))
  exact ⟨t, rest, e, hn⟩

/-- the result of an operation that returns a heap and a value -/
def HV (h : Heap) (r : Heap × Val) : Prop := WF r.1 ∧ Ext h r.1 ∧ VOK r.1 r.2

/-- the result of an operation that returns a heap -/
def HH (h : Heap) (r : Heap) : Prop := WF r ∧ Ext h r

open Res (Good)

theorem good_length {h : Heap} (hw : WF h) {v : Val} (hv : VOK h v) : Good (fun _ => True) (pStringLength h v) := by
  cases v with
  | str a =>
    obtain ⟨t, rest, e, hn⟩ := wf_text hw hv
    rw [pStringLength, stringLength_text e hn]; trivial
  | _ => trivial

theorem good_ref {h : Heap} (hw : WF h) {v i : Val} (hv : VOK h v) : Good (fun r => r.isChar = true) (pStringRef h v i) := by
  cases v with
  | str a =>
    cases i with
    | num w =>
      obtain ⟨t, rest, e, hn⟩ := wf_text hw hv
      rw [pStringRef]
      refine Good.ite (fun h1 => ?_) (fun _ => trivial)
      rw [stringLength_text e hn, Res.ok_bind]
      refine Good.ite (fun _ => trivial) (fun h2 => ?_)
      rw [stringRef, bufOf_eq e, Res.ok_bind, if_neg (by rw [slt_zero_false ((nonNeg_iff w).1 h1)]; simp),
        List.getElem?_append_left (by omega), List.getElem?_eq_getElem (by omega)]
      rfl
    | _ => trivial
  | _ => cases i <;> trivial

theorem good_set {h : Heap} (hw : WF h) {v i c : Val} (hv : VOK h v) : Good (HH h) (pStringSet h v i c) := by
  cases v with
  | str a =>
    cases i with
    | num w =>
      obtain ⟨t, rest, e, hn⟩ := wf_text hw hv
      simp only [pStringSet]
      refine Good.ite (fun h1 => ?_) (fun _ => trivial)
      rw [stringLength_text e hn, Res.ok_bind]
      refine Good.ite (fun _ => trivial) (fun h2 => ?_)
      cases c with
      | char b =>
        simp only
        rw [stringSet, bufOf_eq e, Res.ok_bind, if_neg (by rw [slt_zero_false ((nonNeg_iff w).1 h1)]; simp),
          if_pos (by simp; omega)]
        refine wf_set_buf hw e ?_
        rw [List.set_append_left (h := by omega)]
        simp
      | _ => trivial
    | _ => trivial
  | _ => cases i <;> trivial

theorem good_mstring2 {h : Heap} (hw : WF h) {w : Word} {c : Byte} (hl : w.toNat + 1 < 2 ^ 63) : Good (HV h) (mstring2 h w c) := by
  rw [mstring2_eq h hl]
  have := wf_append (o := .buf (List.replicate w.toNat c ++ [0#8])) hw (by simp [OOK])
  exact ⟨this.1, this.2, _, List.getElem?_concat_length ..⟩

theorem tooLarge_num {w : Word} (h1 : ¬ tooLarge (.num w) = true) (h2 : nonNeg w = true) : w.toNat < 2 ^ 62 := by
  simp only [tooLarge, h2, Bool.true_and, decide_eq_true_eq] at h1; omega

theorem good_make {h : Heap} (hw : WF h) {n c : Val} (hl : ¬ tooLarge n = true) : Good (HV h) (pMakeString h n c) := by
  cases n with
  | num w =>
    cases c with
    | char b =>
      rw [pMakeString]
      exact Good.ite (fun h1 => good_mstring2 hw (by have := tooLarge_num hl h1; omega)) (fun _ => trivial)
    | _ => trivial
  | _ => trivial

theorem good_sumLengths {h : Heap} (hw : WF h) : ∀ (as : List Nat), (∀ a ∈ as, VOK h (.str a)) → Good (fun _ => True) (sumLengths h as)
  | [], _ => trivial
  | a :: as, ha => by
    obtain ⟨t, rest, e, hn⟩ := wf_text hw (ha a (by simp))
    rw [sumLengths, stringLength_text e hn, Res.ok_bind]
    exact (good_sumLengths hw as (fun b hb => ha b (by simp [hb]))).bind (fun _ _ => trivial)

theorem good_appendLoop (s : Nat) : ∀ (n : Nat) (h : Heap) (as : List Nat) (i j : Nat), WF h → VOK h (.str s) →
    (∀ a ∈ as, VOK h (.str a)) → Good (HH h) (appendLoop s n h as i j) := by
  intro n
  induction n with
  | zero => intro _ _ _ _ _ _ _; trivial
  | succ n ih =>
    intro h as i j hw hs ha
    cases as with
    | nil => exact ⟨hw, Ext.refl h⟩
    | cons a as =>
      obtain ⟨t, rest, e, hn⟩ := wf_text hw (ha a (by simp))
      rw [appendLoop, stringLength_text e hn, Res.ok_bind]
      refine Good.ite (fun _ => ih h as i 0 hw hs (fun b hb => ha b (by simp [hb]))) (fun _ => ?_)
      refine (good_ref hw (ha a (by simp))).bind (fun c _ => ?_)
      refine (good_set hw hs).bind (fun h' hh => ?_)
      exact (ih h' (a :: as) (i + 1) (j + 1) hh.1 (hh.2 _ hs) (fun b hb => hh.2 _ (ha b hb))).mono
        (fun r hr => ⟨hr.1, hh.2.trans hr.2⟩)

theorem addresses_ok {h : Heap} : ∀ {vs : List Val} {as : List Nat}, addresses vs = some as → (∀ v ∈ vs, VOK h v) → ∀ a ∈ as, VOK h (.str a)
  | [], as, e, _ => by simp [addresses] at e; subst e; simp
  | v :: vs, as, e, hv => by
    cases v with
    | str b =>
      simp only [addresses, Option.map_eq_some_iff] at e
      obtain ⟨bs, e, rfl⟩ := e
      intro a ha
      rcases List.mem_cons.1 ha with rfl | ha
      · exact hv _ (by simp)
      · exact addresses_ok e (fun w hw => hv w (by simp [hw])) a ha
    | _ => simp [addresses] at e

theorem good_append {h : Heap} (hw : WF h) {vs : List Val} (hv : ∀ v ∈ vs, VOK h v) {n lit : Nat} (hlit : VOK h (.str lit)) :
    Good (HV h) (stepAppend n lit h vs) := by
  rw [stepAppend]
  cases e : addresses vs with
  | none => trivial
  | some as =>
    have ha := addresses_ok e hv
    have hs := good_sumLengths hw as ha
    simp only
    cases hk : sumLengths h as with
    | ok len =>
      rw [Res.ok_bind]
      refine Good.ite (fun _ => trivial) (fun hl => ?_)
      rw [pStringAppend, e]
      match as, ha, hk with
      | [], _, _ => exact ⟨hw, Ext.refl h, hlit⟩
      | [a], ha, _ => exact ⟨hw, Ext.refl h, ha a (by simp)⟩
      | a :: b :: as, ha, hk =>
        simp only
        rw [hk, Res.ok_bind]
        have hb : (BitVec.ofNat 64 len).toNat + 1 < 2 ^ 63 := by rw [toNat_ofNat64 (by omega)]; omega
        rw [mstring2_eq h hb, Res.ok_bind]
        have h2 := good_mstring2 (c := 48#8) hw hb
        rw [mstring2_eq h hb] at h2
        obtain ⟨w2, x2, v2⟩ := h2
        exact (good_appendLoop h.length n _ (a :: b :: as) 0 0 w2 v2 (fun c hc => x2 _ (ha c hc))).bind
          (fun h' hh => ⟨hh.1, x2.trans hh.2, hh.2 _ v2⟩)
    | err => trivial
    | oof => trivial
    | ub => rw [hk] at hs; exact hs.elim

theorem good_substringLoop (a s stop : Nat) : ∀ (m : Nat) (h : Heap) (i n : Nat), WF h → VOK h (.str a) → VOK h (.str s) →
    Good (HH h) (substringLoop a s stop m h i n) := by
  intro m
  induction m with
  | zero => intro _ _ _ _ _ _; trivial
  | succ m ih =>
    intro h i n hw ha hs
    rw [substringLoop]
    refine Good.ite (fun _ => ⟨hw, Ext.refl h⟩) (fun _ => ?_)
    refine (good_ref hw ha).bind (fun c _ => ?_)
    refine (good_set hw hs).bind (fun h' hh => ?_)
    exact (ih h' (i + 1) (n + 1) hh.1 (hh.2 _ ha) (hh.2 _ hs)).mono (fun r hr => ⟨hr.1, hh.2.trans hr.2⟩)

theorem good_substring {h : Heap} (hw : WF h) {v b e : Val} (hv : VOK h v) (hl : ¬ tooLarge e = true) (m : Nat) :
    Good (HV h) (pSubstring m h v b e) := by
  cases v with
  | str a =>
    obtain ⟨t, rest, ea, hn⟩ := wf_text hw hv
    have bad : Good (HV h) (stringLength h a >>= fun _ => (.err : Res (Heap × Val))) := by
      rw [stringLength_text ea hn]; trivial
    cases b with
    | num x =>
      cases e with
      | num y =>
        simp only [pSubstring]
        rw [stringLength_text ea hn, Res.ok_bind]
        refine Good.ite (fun hc => ?_) (fun _ => trivial)
        simp only [Bool.and_eq_true, decide_eq_true_eq] at hc
        have hy := tooLarge_num hl hc.1.1.2
        have hsub : (y - x).toNat < 2 ^ 62 := by
          rw [BitVec.toNat_sub_of_le (BitVec.le_def.2 hc.2)]; omega
        rw [pMakeString, if_pos ((nonNeg_iff _).2 (by omega)), mstring2_eq h (by omega), Res.ok_bind]
        have h2 := good_mstring2 (w := y - x) (c := 97#8) hw (by omega)
        rw [mstring2_eq h (by omega)] at h2
        obtain ⟨w2, x2, v2⟩ := h2
        exact (good_substringLoop a h.length y.toNat m _ 0 x.toNat w2 (x2 _ hv) v2).bind
          (fun h' hh => ⟨hh.1, x2.trans hh.2, hh.2 _ v2⟩)
      | _ => exact bad
    | _ => exact bad
  | _ => cases b <;> cases e <;> trivial

theorem good_numberToString {h : Heap} (hw : WF h) (v : Val) : Good (HV h) (pNumberToString h v) := by
  cases v with
  | num w =>
    have := decimal_length w
    rw [pNumberToString, numberToString, if_pos this]
    have := wf_append (o := .buf (decimal w.toInt ++ List.replicate (25 - (decimal w.toInt).length) 0#8)) hw
      (by simp only [OOK, List.mem_append, List.mem_replicate]; right; exact ⟨by omega, trivial⟩)
    exact ⟨this.1, this.2, _, List.getElem?_concat_length ..⟩
  | _ => trivial

theorem charBytes_ok : ∀ (vs : List Val), vs.all Val.isChar = true → ∃ bs, charBytes vs = .ok bs
  | [], _ => ⟨[], rfl⟩
  | v :: vs, hc => by
    simp only [List.all_cons, Bool.and_eq_true] at hc
    obtain ⟨bs, e⟩ := charBytes_ok vs hc.2
    cases v with
    | char b => exact ⟨b :: bs, by rw [charBytes, e]; rfl⟩
    | _ => simp [Val.isChar] at hc

theorem good_listToString {h : Heap} (hw : WF h) (vs : List Val) : Good (HV h) (pListToString h vs) := by
  rw [pListToString]
  refine Good.ite (fun hc => ?_) (fun _ => trivial)
  obtain ⟨bs, e⟩ := charBytes_ok vs hc
  rw [listToString, e, Res.ok_bind]
  have := wf_append (o := .buf (bs ++ [0#8])) hw (by simp [OOK])
  exact ⟨this.1, this.2, _, List.getElem?_concat_length ..⟩

theorem good_stringToList {h : Heap} (hw : WF h) {v : Val} (hv : VOK h v) : Good (fun vs => ∀ x ∈ vs, VOK h x) (pStringToList h v) := by
  cases v with
  | str a =>
    obtain ⟨t, rest, e, hn⟩ := wf_text hw hv
    rw [C31_string_to_list ⟨a, rest, rfl, e, hn⟩]
    intro x hx
    simp only [List.mem_append, List.mem_map, List.mem_singleton] at hx
    rcases hx with ⟨b, _, rfl⟩ | rfl <;> trivial
  | _ => trivial

theorem good_makeVector {h : Heap} (hw : WF h) {n x : Val} (hx : VOK h x) : Good (HV h) (pMakeVector h n x) := by
  cases n with
  | num w =>
    rw [pMakeVector]
    refine Good.ite (fun h1 => ?_) (fun _ => trivial)
    rw [mvector, if_neg (by rw [slt_zero_false ((nonNeg_iff w).1 h1)]; simp)]
    have := wf_append (o := .vec (List.replicate w.toNat x)) hw (fun e he => by rw [List.eq_of_mem_replicate he]; exact hx)
    exact ⟨this.1, this.2, _, List.getElem?_concat_length ..⟩
  | _ => trivial

theorem good_vectorRef {h : Heap} (hw : WF h) {v i : Val} (hv : VOK h v) : Good (VOK h) (pVectorRef h v i) := by
  cases v with
  | vec a =>
    cases i with
    | num w =>
      obtain ⟨es, e⟩ := hv
      rw [pVectorRef]
      refine Good.ite (fun h1 => ?_) (fun _ => trivial)
      rw [vecOf_eq e, Res.ok_bind]
      refine Good.ite (fun _ => trivial) (fun h2 => ?_)
      rw [vectorRef, vecOf_eq e, Res.ok_bind, if_neg (by rw [slt_zero_false ((nonNeg_iff w).1 h1)]; simp),
        List.getElem?_eq_getElem (by omega)]
      exact hw _ (List.mem_of_getElem? e) _ (List.getElem_mem _)
    | _ => trivial
  | _ => cases i <;> trivial

theorem good_vectorSet {h : Heap} (hw : WF h) {v i x : Val} (hv : VOK h v) (hx : VOK h x) : Good (HH h) (pVectorSet h v i x) := by
  cases v with
  | vec a =>
    cases i with
    | num w =>
      obtain ⟨es, e⟩ := hv
      rw [pVectorSet]
      refine Good.ite (fun h1 => ?_) (fun _ => trivial)
      rw [vecOf_eq e, Res.ok_bind]
      refine Good.ite (fun _ => trivial) (fun h2 => ?_)
      rw [vectorSet, vecOf_eq e, Res.ok_bind, if_neg (by rw [slt_zero_false ((nonNeg_iff w).1 h1)]; simp), if_pos (by omega)]
      refine wf_set_vec hw e (fun y hy => ?_)
      rcases List.mem_or_eq_of_mem_set hy with hy | hy
      · exact hw _ (List.mem_of_getElem? e) _ hy
      · rw [hy]; exact hx
    | _ => trivial
  | _ => cases i <;> trivial

theorem good_vectorFill {h : Heap} (hw : WF h) {v x : Val} (hv : VOK h v) (hx : VOK h x) : Good (HH h) (pVectorFill h v x) := by
  cases v with
  | vec a =>
    obtain ⟨es, e⟩ := hv
    rw [pVectorFill, vecOf_eq e, Res.ok_bind]
    refine wf_set_vec hw e (fun y hy => ?_)
    obtain ⟨_, _, rfl⟩ := List.mem_map.1 hy
    exact hx
  | _ => trivial

theorem good_vectorLength {h : Heap} {v : Val} (hv : VOK h v) : Good (fun _ => True) (pVectorLength h v) := by
  cases v with
  | vec a => obtain ⟨es, e⟩ := hv; rw [pVectorLength, vecOf_eq e]; trivial
  | _ => trivial

theorem good_get {h : Heap} {rs : List Val} (hr : ∀ v ∈ rs, VOK h v) (i : Nat) : Good (VOK h) (get rs i) := by
  rw [get]
  cases e : rs[i]? with
  | none => trivial
  | some v => exact hr v (List.mem_of_getElem? e)

theorem good_getAll {h : Heap} {rs : List Val} (hr : ∀ v ∈ rs, VOK h v) : ∀ (is : List Nat), Good (fun vs => ∀ v ∈ vs, VOK h v) (getAll rs is)
  | [] => by intro v hv; cases hv
  | i :: is => by
    rw [getAll]
    refine (good_get hr i).bind (fun v hv => (good_getAll hr is).bind (fun vs hvs => ?_))
    intro x hx
    rcases List.mem_cons.1 hx with rfl | hx
    · exact hv
    · exact hvs x hx

/-- what one step yields -/
def HS (h : Heap) (r : Heap × List Val) : Prop := WF r.1 ∧ Ext h r.1 ∧ ∀ v ∈ r.2, VOK r.1 v

theorem HV.hs {h : Heap} {r : Heap × Val} (x : HV h r) : HS h (r.1, [r.2]) :=
  ⟨x.1, x.2.1, fun v hv => by rw [List.mem_singleton.1 hv]; exact x.2.2⟩

theorem HH.hs {h r : Heap} (x : HH h r) : HS h (r, []) := ⟨x.1, x.2, fun v hv => by cases hv⟩

theorem hs_val {h : Heap} (hw : WF h) {v : Val} (hv : VOK h v) : HS h (h, [v]) :=
  ⟨hw, Ext.refl h, fun x hx => by rw [List.mem_singleton.1 hx]; exact hv⟩

theorem isChar_ok {h : Heap} {v : Val} (hv : v.isChar = true) : VOK h v := by cases v <;> first | trivial | (simp [Val.isChar] at hv)

theorem good_step {h : Heap} (hw : WF h) {rs : List Val} (hr : ∀ v ∈ rs, VOK h v) {n lit : Nat} (hlit : VOK h (.str lit)) (op : Op) :
    Good (HS h) (step n lit h rs op) := by
  cases op with
  | makeString i c =>
    refine (good_get hr i).bind (fun x _ => (good_get hr c).bind (fun y _ => Good.ite (fun _ => trivial) (fun hl => ?_)))
    exact (good_make hw hl).bind (fun r h2 => h2.hs)
  | stringLength s =>
    exact (good_get hr s).bind (fun x hx => (good_length hw hx).bind (fun k _ => hs_val hw trivial))
  | stringRef s i =>
    exact (good_get hr s).bind (fun x hx => (good_get hr i).bind (fun y _ => (good_ref hw hx).bind (fun r h2 => hs_val hw (isChar_ok h2))))
  | stringSet s i c =>
    exact (good_get hr s).bind (fun x hx => (good_get hr i).bind (fun y _ => (good_get hr c).bind (fun z _ =>
      (good_set hw hx).bind (fun r h2 => h2.hs))))
  | stringAppend ss =>
    exact (good_getAll hr ss).bind (fun vs hv => (good_append hw hv hlit).bind (fun r h2 => h2.hs))
  | substring s b e =>
    refine (good_get hr s).bind (fun x hx => (good_get hr b).bind (fun y _ => (good_get hr e).bind (fun z _ =>
      Good.ite (fun _ => trivial) (fun hl => ?_))))
    exact (good_substring hw hx hl n).bind (fun r h2 => h2.hs)
  | numberToString i => exact (good_get hr i).bind (fun x _ => (good_numberToString hw x).bind (fun r h2 => h2.hs))
  | listToString cs => exact (good_getAll hr cs).bind (fun vs _ => (good_listToString hw vs).bind (fun r h2 => h2.hs))
  | stringToList s =>
    exact (good_get hr s).bind (fun x hx => (good_stringToList hw hx).bind (fun vs h2 => ⟨hw, Ext.refl h, h2⟩))
  | charToInteger c =>
    refine (good_get hr c).bind (fun x _ => ?_)
    cases x <;> first | trivial | exact hs_val hw trivial
  | integerToChar i =>
    refine (good_get hr i).bind (fun x _ => ?_)
    cases x <;> first | trivial | exact hs_val hw trivial
  | makeVector i x =>
    refine (good_get hr i).bind (fun k _ => (good_get hr x).bind (fun y hy => Good.ite (fun _ => trivial) (fun _ => ?_)))
    exact (good_makeVector hw hy).bind (fun r h2 => h2.hs)
  | vectorLength v =>
    exact (good_get hr v).bind (fun x hx => (good_vectorLength hx).bind (fun k _ => hs_val hw trivial))
  | vectorRef v i =>
    exact (good_get hr v).bind (fun x hx => (good_get hr i).bind (fun y _ => (good_vectorRef hw hx).bind (fun r h2 => hs_val hw h2)))
  | vectorSet v i x =>
    exact (good_get hr v).bind (fun a ha => (good_get hr i).bind (fun b _ => (good_get hr x).bind (fun c hc =>
      (good_vectorSet hw ha hc).bind (fun r h2 => h2.hs))))
  | vectorFill v x =>
    exact (good_get hr v).bind (fun a ha => (good_get hr x).bind (fun c hc => (good_vectorFill hw ha hc).bind (fun r h2 => h2.hs)))

theorem good_run (n lit : Nat) : ∀ (ops : List Op) (h : Heap) (rs : List Val), WF h → (∀ v ∈ rs, VOK h v) → VOK h (.str lit) →
    Good (fun r => HS h r) (run n lit h rs ops)
  | [], h, rs, hw, hr, _ => ⟨hw, Ext.refl h, hr⟩
  | op :: ops, h, rs, hw, hr, hlit => by
    rw [run]
    refine (good_step hw hr hlit op).bind (fun r h2 => ?_)
    refine (good_run n lit ops r.1 (rs ++ r.2) h2.1 (fun v hv => ?_) (h2.2.1 _ hlit)).mono
      (fun r' h3 => ⟨h3.1, h2.2.1.trans h3.2.1, h3.2.2⟩)
    rcases List.mem_append.1 hv with hv | hv
    · exact h2.2.1 v (hr v hv)
    · exact h2.2.2 v hv

/-- C34: no program over the checked string and vector procedures, started with any constants and strings and vectors obtained
from them alone, performs an access outside an object, whatever the arguments. -/
theorem C34_programs (n : Nat) (consts : List Val) (hc : ∀ v ∈ consts, (∀ a, v ≠ .str a) ∧ (∀ a, v ≠ .vec a)) (ops : List Op) :
    run n 0 [.buf [0#8]] (.str 0 :: consts) ops ≠ .ub := by
  refine (good_run n 0 ops [.buf [0#8]] (.str 0 :: consts) ?_ ?_ ⟨_, rfl⟩).ne_ub
  · intro o ho; rw [List.mem_singleton.1 ho]; simp [OOK]
  · intro v hv
    rcases List.mem_cons.1 hv with rfl | hv
    · exact ⟨_, rfl⟩
    · have := hc v hv
      cases v <;> first | trivial | exact absurd rfl (this.1 _) | exact absurd rfl (this.2 _)

/-- a program that builds a string of two `a`, stores `b`, appends it to itself, and asks for an index outside is an error -/
example : run 20 0 [.buf [0#8]] [.str 0, .num 2#64, .char 97#8, .char 98#8, .num 1#64]
      [.makeString 1 2, .stringSet 5 4 3, .stringAppend [5, 5], .stringRef 6 4] =
    .ok ([.buf [0#8], .buf [97#8, 98#8, 0#8], .buf [97#8, 98#8, 97#8, 98#8, 0#8]],
      [.str 0, .num 2#64, .char 97#8, .char 98#8, .num 1#64, .str 1, .str 2, .char 98#8]) ∧
    run 20 0 [.buf [0#8]] [.str 0, .num 2#64] [.stringRef 0 1] = .err := by decide +kernel

end Minim.Str
