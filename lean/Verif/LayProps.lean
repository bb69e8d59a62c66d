import Verif.Lay
import Mathlib.Data.List.Forall2
import Mathlib.Tactic.CasesM

set_option autoImplicit false

/-!
# Objects keep what is stored in them (C86)

Specification: an object is a kind and a value (or nothing yet) for each of its fields.
-/

namespace Minim.Lay

/-! ### specification -/

/-- the fields that the objects of a kind have -/
inductive Has : Kind → Fld → Prop where
  | special : Has .special .type
  | char : Has .char .type
  | chr : Has .char .chr
  | fixnum : Has .fixnum .type
  | fix : Has .fixnum .fix
  | symbol : Has .symbol .type
  | sym : Has .symbol .sym
  | string : Has .string .type
  | str : Has .string .str
  | pair : Has .pair .type
  | car : Has .pair .car
  | cdr : Has .pair .cdr
  | vector {n : Nat} : Has (.vector n) .type
  | vlen {n : Nat} : Has (.vector n) .vlen
  | vref {n i : Nat} : i < n → Has (.vector n) (.vref i)
  | closure {n : Nat} : Has (.closure n) .type
  | cenv {n : Nat} : Has (.closure n) .cenv
  | ccode {n : Nat} : Has (.closure n) .ccode
  | cname {n : Nat} : Has (.closure n) .cname
  | ccount {n : Nat} : Has (.closure n) .ccount
  | cref {n i : Nat} : i < n → Has (.closure n) (.cref i)
  | port : Has .port .type
  | pflags : Has .port .pflags
  | pfp : Has .port .pfp
  | record {n : Nat} : Has (.record n) .type
  | rcount {n : Nat} : Has (.record n) .rcount
  | rrtd {n : Nat} : Has (.record n) .rrtd
  | rref {n i : Nat} : i < n → Has (.record n) (.rref i)
  | box : Has .box .type
  | unbox : Has .box .unbox
  | hashtable : Has .hashtable .type
  | hbuckets : Has .hashtable .hbuckets
  | halloc : Has .hashtable .halloc
  | hcount : Has .hashtable .hcount
  | syntax : Has .syntax .type
  | stxE : Has .syntax .stxE
  | stxLoc : Has .syntax .stxLoc
  | env {n : Nat} : Has (.env n) .type
  | eref {n i : Nat} : i < n → Has (.env n) (.eref i)
  | topenv : Has .topenv .type
  | tbuckets : Has .topenv .tbuckets
  | talloc : Has .topenv .talloc
  | tcount : Has .topenv .tcount
  | continuation : Has .continuation .type
  | kprev : Has .continuation .kprev
  | kpc : Has .continuation .kpc
  | kenv : Has .continuation .kenv
  | ksfp : Has .continuation .ksfp
  | kcp : Has .continuation .kcp
  | kac : Has .continuation .kac
  | code {n : Nat} : Has (.code n) .type
  | codeLen {n : Nat} : Has (.code n) .codeLen
  | codeArity {n : Nat} : Has (.code n) .codeArity
  | codeReloc {n : Nat} : Has (.code n) .codeReloc
  | codeRef {n i : Nat} : i ≤ n → Has (.code n) (.codeRef i)
  | sbase : Has .cache .sbase
  | sprev : Has .cache .sprev
  | slen : Has .cache .slen
  | sret : Has .cache .sret
  | tcw {i : Nat} : i < 23 → Has .tc (.tcw i)
  | byte {n i : Nat} : i ≤ n → Has (.chars n) (.byte i)

/-- the number of bytes of a field: one for tags, characters and flags, four for the number of fields of a record, else eight -/
def width : Fld → Nat
  | .type | .chr | .pflags | .byte _ => 1
  | .rcount => 4
  | _ => 8

/-- the object is no larger than the machine can tell (a record: than an `int` can) -/
def Fits : Kind → Prop
  | .vector n => n + 2 < 2 ^ 60
  | .closure n => n + 5 < 2 ^ 61
  | .record n => n + 2 < 2 ^ 28
  | .env n => n + 1 < 2 ^ 61
  | .code n => n + 5 < 2 ^ 61
  | .chars n => n + 1 < 2 ^ 63
  | _ => True

/-- what a new object holds -/
def initial : New → Fld → Option (List Byte)
  | .cache b _ _ _, .sbase => some b
  | .cache _ p _ _, .sprev => some p
  | .cache _ _ l _, .slen => some l
  | .cache _ _ _ r, .sret => some r
  | .char x, .chr => some [x]
  | .fixnum v, .fix => some v
  | .symbol s, .sym => some s
  | .string s, .str => some s
  | .cons a _, .car => some a
  | .cons _ d, .cdr => some d
  | .vector _ len _, .vlen => some len
  | .vector _ _ init, .vref _ => init
  | .closure _ _ env _ _, .cenv => some env
  | .closure _ _ _ code _, .ccode => some code
  | .closure _ _ _ _ name, .cname => some name
  | .closure _ count _ _ _, .ccount => some count
  | .inPort _, .pflags => some [2]
  | .inPort fp, .pfp => some fp
  | .outPort _, .pflags => some [0]
  | .outPort fp, .pfp => some fp
  | .record _ count _, .rcount => some count
  | .record _ _ rtd, .rrtd => some rtd
  | .box x, .unbox => some x
  | .hashtable b _ _, .hbuckets => some b
  | .hashtable _ p _, .halloc => some p
  | .hashtable _ _ n, .hcount => some n
  | .syntax e _, .stxE => some e
  | .syntax _ loc, .stxLoc => some loc
  | .topenv b _ _, .tbuckets => some b
  | .topenv _ p _, .talloc => some p
  | .topenv _ _ n, .tcount => some n
  | .continuation prev _ _ _ _ _, .kprev => some prev
  | .continuation _ pc _ _ _ _, .kpc => some pc
  | .continuation _ _ env _ _ _, .kenv => some env
  | .continuation _ _ _ sfp _ _, .ksfp => some sfp
  | .continuation _ _ _ _ cp _, .kcp => some cp
  | .continuation _ _ _ _ _ ac, .kac => some ac
  | .code _ len, .codeLen => some len
  | .fill n x, .byte i => some [if i = n then 0 else x]
  | c, .type => some [tag c.kind]
  | _, _ => none

/-- the arguments of the constructor have the right number of bytes -/
def Args (c : New) : Prop := ∀ f v, initial c f = some v → v.length = width f

/-- an object -/
structure Obj where
  kind : Kind
  val : Fld → Option (List Byte)

/-- the field now holds `v` -/
def Obj.upd (x : Obj) (f : Fld) (v : List Byte) : Obj := ⟨x.kind, fun g => if g = f then some v else x.val g⟩

/-- the program is in order: it makes no characters, nothing that is too large, and stores values of the right size in fields that are there, except tags -/
inductive Ok : List Obj → List Op → List Obj → Prop where
  | done {xs : List Obj} : Ok xs [] xs
  | make {xs ys : List Obj} {c : New} {ops : List Op} : c.kind ≠ .char → Fits c.kind → Args c → Ok (xs ++ [⟨c.kind, initial c⟩]) ops ys → Ok xs (.make c :: ops) ys
  | set {xs ys : List Obj} {o : Nat} {f : Fld} {v : List Byte} {x : Obj} {ops : List Op} : xs[o]? = some x → Has x.kind f → f ≠ .type → v.length = width f →
      Ok (xs.set o (x.upd f v)) ops ys → Ok xs (.set o f v :: ops) ys

/-- what is read from a field: the value, or bytes that were never stored -/
def shown (f : Fld) : Option (List Byte) → Block
  | some v => v.map some
  | none => List.replicate (width f) none

/-! ### lemmas -/

theorem width_eq (f : Fld) : (acc f).2 = width f := by cases f <;> rfl

/-- every field lies in the block -/
theorem Has.inside {k : Kind} {f : Fld} (h : Has k f) (hc : k ≠ .char) (ft : Fits k) : ∃ n, allocSize k = .ok n ∧ (acc f).1 + (acc f).2 ≤ n := by
  cases h <;> simp only [Fits] at ft <;> first
    | exact absurd rfl hc
    | (refine ⟨_, rfl, ?_⟩; simp only [acc]; omega)
    | (refine ⟨_, if_pos (by omega), ?_⟩; simp only [acc]; omega)

theorem size_ok {k : Kind} (ft : Fits k) : ∃ n, allocSize k = .ok n := by
  cases k <;> simp only [Fits] at ft <;> first
    | exact ⟨_, rfl⟩
    | exact ⟨_, if_pos (by omega)⟩

/-- two fields of an object do not overlap -/
theorem Has.apart {k : Kind} {f g : Fld} (hf : Has k f) (hg : Has k g) (ne : f ≠ g) : (acc f).1 + (acc f).2 ≤ (acc g).1 ∨ (acc g).1 + (acc g).2 ≤ (acc f).1 := by
  cases hf <;> cases hg <;> simp only [acc, ne_eq, not_true_eq_false, Fld.vref.injEq, Fld.cref.injEq, Fld.rref.injEq, Fld.eref.injEq, Fld.codeRef.injEq, Fld.tcw.injEq, Fld.byte.injEq] at * <;> omega

/-- the bytes at a place -/
def slice (b : Block) (a : Nat × Nat) : Block := (b.drop a.1).take a.2

/-- the block after a store -/
def put (b : Block) (off : Nat) (v : List Byte) : Block := b.take off ++ v.map some ++ b.drop (off + v.length)

theorem put_length {b : Block} {off : Nat} {v : List Byte} (h : off + v.length ≤ b.length) : (put b off v).length = b.length := by
  simp [put]; omega

theorem put_get {b : Block} {off : Nat} {v : List Byte} (h : off + v.length ≤ b.length) (i : Nat) :
    (put b off v)[i]? = if off ≤ i ∧ i < off + v.length then (v.map some)[i - off]? else b[i]? := by
  have h1 : (b.take off).length = off := by simp; omega
  unfold put
  by_cases hi : i < off
  · rw [if_neg (by omega), List.append_assoc, List.getElem?_append_left (by omega), List.getElem?_take_of_lt hi]
  · by_cases hj : i < off + v.length
    · rw [if_pos (by omega), List.getElem?_append_left (by simp; omega), List.getElem?_append_right (by omega), h1]
    · rw [if_neg (by omega), List.getElem?_append_right (by simp; omega), List.getElem?_drop]
      congr 1
      simp
      omega

theorem slice_get (b : Block) (a : Nat × Nat) (i : Nat) : (slice b a)[i]? = if i < a.2 then b[a.1 + i]? else none := by
  unfold slice
  rw [List.getElem?_take]
  split
  · rw [List.getElem?_drop]
  · rfl

theorem slice_put {b : Block} {off : Nat} {v : List Byte} (h : off + v.length ≤ b.length) : slice (put b off v) (off, v.length) = v.map some := by
  apply List.ext_getElem?
  intro i
  rw [slice_get, put_get h]
  dsimp only
  by_cases hi : i < v.length
  · rw [if_pos hi, if_pos (by omega), Nat.add_sub_cancel_left]
  · rw [if_neg hi, List.getElem?_eq_none (by simpa using hi)]

theorem slice_put_ne {b : Block} {off : Nat} {v : List Byte} {a : Nat × Nat} (h : off + v.length ≤ b.length) (d : off + v.length ≤ a.1 ∨ a.1 + a.2 ≤ off) :
    slice (put b off v) a = slice b a := by
  apply List.ext_getElem?
  intro i
  rw [slice_get, slice_get, put_get h]
  by_cases hi : i < a.2
  · rw [if_pos hi, if_pos hi, if_neg (by omega)]
  · rw [if_neg hi, if_neg hi]

/-- the block holds the object -/
structure Holds (b : Block) (x : Obj) : Prop where
  nochar : x.kind ≠ .char
  fits : Fits x.kind
  size : allocSize x.kind = .ok b.length
  vals : ∀ f, Has x.kind f → slice b (acc f) = shown f (x.val f)

theorem Holds.bound {b : Block} {x : Obj} (h : Holds b x) {f : Fld} (hf : Has x.kind f) : (acc f).1 + (acc f).2 ≤ b.length := by
  obtain ⟨n, h1, h2⟩ := hf.inside h.nochar h.fits
  rw [h.size] at h1
  cases h1
  exact h2

theorem Holds.upd {b : Block} {x : Obj} (h : Holds b x) {f : Fld} (hf : Has x.kind f) {v : List Byte} (hv : v.length = width f) : Holds (put b (acc f).1 v) (x.upd f v) := by
  have hb := h.bound hf
  rw [width_eq, ← hv] at hb
  refine ⟨h.nochar, h.fits, by rw [put_length hb]; exact h.size, fun g hg => ?_⟩
  unfold Obj.upd
  dsimp only
  by_cases e : g = f
  · subst e
    rw [if_pos rfl]
    have := slice_put hb
    rw [hv, ← width_eq] at this
    exact this
  · rw [if_neg e, slice_put_ne hb]
    · exact h.vals g hg
    · have := hf.apart hg (Ne.symm e)
      rw [width_eq, ← hv] at this
      exact this

theorem set_ok {m : Mem} {o : Nat} {b : Block} (hm : m[o]? = some b) {x : Obj} (h : Holds b x) {f : Fld} (hf : Has x.kind f) {v : List Byte} (hv : v.length = width f) :
    set m o f v = .ok (m.set o (put b (acc f).1 v)) := by
  have hb := h.bound hf
  rw [width_eq, ← hv] at hb
  rw [set, store, hm]
  exact if_pos hb

/-- store after store -/
def Obj.upds (x : Obj) : List (Fld × List Byte) → Obj
  | [] => x
  | (f, v) :: fs => (x.upd f v).upds fs

theorem sets_ok {o : Nat} : ∀ (fs : List (Fld × List Byte)) {m : Mem} {b : Block} {x : Obj}, m[o]? = some b → Holds b x → (∀ p ∈ fs, Has x.kind p.1 ∧ p.2.length = width p.1) →
    ∃ b', sets o m fs = .ok (m.set o b') ∧ Holds b' (x.upds fs)
  | [], m, b, x, hm, h, _ => by
    refine ⟨b, ?_, h⟩
    obtain ⟨hi, rfl⟩ := List.getElem?_eq_some_iff.1 hm
    rw [List.set_getElem_self]
    rfl
  | (f, v) :: fs, m, b, x, hm, h, hp => by
    obtain ⟨h1, h2⟩ := hp (f, v) List.mem_cons_self
    obtain ⟨b', e, hb⟩ := sets_ok fs (m := m.set o (put b (acc f).1 v)) (List.getElem?_set_self (List.getElem?_eq_some_iff.1 hm).1) (h.upd h1 h2)
      (fun p hp' => hp p (List.mem_cons_of_mem _ hp'))
    refine ⟨b', ?_, hb⟩
    rw [sets, set_ok hm h h1 h2, Res.ok_bind, e, List.set_set]

theorem Obj.upds_kind (x : Obj) (fs : List (Fld × List Byte)) : (x.upds fs).kind = x.kind := by
  induction fs generalizing x with
  | nil => rfl
  | cons p fs ih => rw [Obj.upds, ih]; rfl

theorem Obj.upds_none {f : Fld} : ∀ (fs : List (Fld × List Byte)) (x : Obj), (∀ p ∈ fs, p.1 ≠ f) → (x.upds fs).val f = x.val f
  | [], _, _ => rfl
  | p :: fs, x, h => by
    rw [Obj.upds, Obj.upds_none fs _ fun q hq => h q (List.mem_cons_of_mem _ hq)]
    exact if_neg (Ne.symm (h p List.mem_cons_self))

theorem Obj.upds_some {f : Fld} {v : List Byte} : ∀ (fs : List (Fld × List Byte)) (x : Obj), (f, v) ∈ fs → (∀ w, (f, w) ∈ fs → w = v) → (x.upds fs).val f = some v
  | p :: fs, x, hm, hu => by
    rw [Obj.upds]
    by_cases h : ∃ w, (f, w) ∈ fs
    · obtain ⟨w, hw⟩ := h
      have := hu w (List.mem_cons_of_mem _ hw)
      subst this
      exact Obj.upds_some fs _ hw fun w' hw' => hu w' (List.mem_cons_of_mem _ hw')
    · rw [Obj.upds_none fs _ fun q hq e => h ⟨q.2, by rw [← e]; exact hq⟩]
      rcases List.mem_cons.1 hm with rfl | hm
      · exact if_pos rfl
      · exact absurd ⟨v, hm⟩ h

/-- the stores of a constructor are those of the specification -/
theorem stores_mem {c : New} {f : Fld} {v : List Byte} (h : (f, v) ∈ stores c) : Has c.kind f ∧ initial c f = some v := by
  cases c with
  | vector n len init =>
    simp only [stores, List.mem_append, List.mem_cons, Prod.mk.injEq, List.not_mem_nil, or_false] at h
    rcases h with (⟨rfl, rfl⟩ | ⟨rfl, rfl⟩) | h
    · exact ⟨.vector, rfl⟩
    · exact ⟨.vlen, rfl⟩
    · cases init with
      | none => cases h
      | some x =>
        simp only [List.mem_map, List.mem_range, Prod.mk.injEq] at h
        obtain ⟨i, hi, rfl, rfl⟩ := h
        exact ⟨.vref hi, rfl⟩
  | fill n x =>
    simp only [stores, List.mem_append, List.mem_map, List.mem_range, List.mem_cons, Prod.mk.injEq, List.not_mem_nil, or_false] at h
    rcases h with ⟨i, hi, rfl, rfl⟩ | ⟨rfl, rfl⟩
    · refine ⟨.byte (by omega), ?_⟩
      simp only [initial]
      rw [if_neg (by omega)]
    · refine ⟨.byte (Nat.le_refl _), ?_⟩
      simp [initial]
  | tc => cases h
  | chars n => cases h
  | _ =>
    simp only [stores, List.mem_cons, Prod.mk.injEq, List.not_mem_nil, or_false] at h
    try casesm* _ ∨ _
    all_goals (obtain ⟨rfl, rfl⟩ := h; exact ⟨by constructor, rfl⟩)

theorem stores_all {c : New} {f : Fld} {v : List Byte} (hf : Has c.kind f) (h : initial c f = some v) : (f, v) ∈ stores c := by
  cases c <;> cases hf <;> simp only [initial, Option.some.injEq, reduceCtorEq] at h <;> subst h <;> simp [stores]
  · assumption
  · omega

theorem holds_new {k : Kind} {n : Nat} (hc : k ≠ .char) (ft : Fits k) (h : allocSize k = .ok n) : Holds (List.replicate n none) ⟨k, fun _ => none⟩ := by
  refine ⟨hc, ft, by rw [List.length_replicate]; exact h, fun f hf => ?_⟩
  obtain ⟨n', h1, h2⟩ := Has.inside hf hc ft
  rw [h] at h1
  cases h1
  unfold slice shown
  rw [List.drop_replicate, List.take_replicate, ← width_eq]
  congr 1
  omega

theorem Holds.congr {b : Block} {x y : Obj} (h : Holds b x) (hk : y.kind = x.kind) (hv : ∀ f, Has x.kind f → y.val f = x.val f) : Holds b y :=
  ⟨hk ▸ h.nochar, hk ▸ h.fits, hk ▸ h.size, fun f hf => by rw [hv f (hk ▸ hf)]; exact h.vals f (hk ▸ hf)⟩

theorem make_ok {m : Mem} {c : New} (hc : c.kind ≠ .char) (ft : Fits c.kind) (ha : Args c) : ∃ b, make m c = .ok (m ++ [b], m.length) ∧ Holds b ⟨c.kind, initial c⟩ := by
  obtain ⟨n, hn⟩ := size_ok ft
  obtain ⟨b, e, h⟩ := sets_ok (o := m.length) (stores c) (m := m ++ [List.replicate n none]) (by simp) (holds_new hc ft hn) fun p hp => by
    obtain ⟨h1, h2⟩ := stores_mem (f := p.1) (v := p.2) hp
    exact ⟨h1, ha _ _ h2⟩
  refine ⟨b, ?_, h.congr (Obj.upds_kind ⟨c.kind, fun _ => none⟩ _).symm fun f hf => ?_⟩
  · rw [make, hn, Res.ok_bind]
    simp only [alloc]
    rw [e, Res.ok_bind]
    simp
  · rw [Obj.upds_kind] at hf
    dsimp only at hf ⊢
    cases hi : initial c f with
    | some v =>
      rw [Obj.upds_some _ _ (stores_all hf hi) fun w hw => ?_]
      have := (stores_mem hw).2
      rw [hi] at this
      cases this
      rfl
    | none =>
      rw [Obj.upds_none _ _ fun p hp e => ?_]
      have := (stores_mem (f := p.1) (v := p.2) hp).2
      rw [e, hi] at this
      cases this

theorem run_ok {xs ys : List Obj} {ops : List Op} (h : Ok xs ops ys) : ∀ {m : Mem}, List.Forall₂ Holds m xs → ∃ m', run m ops = .ok m' ∧ List.Forall₂ Holds m' ys := by
  induction h with
  | done => exact fun hm => ⟨_, rfl, hm⟩
  | make hc ft ha _ ih =>
    intro m hm
    obtain ⟨b, e, hb⟩ := make_ok (m := m) hc ft ha
    obtain ⟨m', e', hm'⟩ := ih (List.rel_append hm (.cons hb .nil))
    exact ⟨m', by rw [run, e]; exact e', hm'⟩
  | @set xs ys o f v x ops hx hf _ hv _ ih =>
    intro m hm
    have hl := hm.length_eq
    obtain ⟨hi, rfl⟩ := List.getElem?_eq_some_iff.1 hx
    have hmo := List.getElem?_eq_getElem (hl ▸ hi)
    have hb := (List.forall₂_iff_get.1 hm).2 o (hl ▸ hi) hi
    simp only [List.get_eq_getElem] at hb
    obtain ⟨m', e', hm'⟩ := ih (m := m.set o (put m[o] (acc f).1 v)) (by
      rw [List.forall₂_iff_get]
      refine ⟨by simp [hl], fun i h1 h2 => ?_⟩
      simp only [List.get_eq_getElem, List.getElem_set]
      split
      · exact hb.upd hf hv
      · have := (List.forall₂_iff_get.1 hm).2 i (by simpa using h1) (by simpa using h2)
        simpa using this)
    exact ⟨m', by rw [run, set_ok hmo hb hf hv]; exact e', hm'⟩

/-! ### properties -/

/-- **C86** for programs without characters and without objects whose size in bytes overflows.  Whatever objects are made, and whatever is stored in their fields in whatever order: no byte outside a block is
touched, and every field of every object holds what was last stored in it or what its constructor put there (and is uninitialised if nothing was).  In particular tags never change.  Missing for the full
claim: `C86_negated_char`, `C86_negated_vector`, `C86_negated_record`. -/
theorem C86_partial {ops : List Op} {ys : List Obj} (h : Ok [] ops ys) :
    ∃ m, run [] ops = .ok m ∧ m.length = ys.length ∧ ∀ o x, ys[o]? = some x → ∀ f, Has x.kind f → get m o f = .ok (shown f (x.val f)) := by
  obtain ⟨m, e, hm⟩ := run_ok h .nil
  refine ⟨m, e, hm.length_eq, fun o x hx f hf => ?_⟩
  obtain ⟨hi, rfl⟩ := List.getElem?_eq_some_iff.1 hx
  have hl := hm.length_eq
  have hb := (List.forall₂_iff_get.1 hm).2 o (hl ▸ hi) hi
  simp only [List.get_eq_getElem] at hb
  rw [get, load, List.getElem?_eq_getElem (hl ▸ hi)]
  dsimp only
  rw [if_pos (hb.bound hf)]
  exact congrArg Res.ok (hb.vals f hf)

/-- a pair and a vector of two elements, an assignment to the first element of the vector and one to the rest of the pair -/
example (a b c d l : Wd) (ha : a.length = 8) (hb : b.length = 8) (hc : c.length = 8) (hd : d.length = 8) (hl : l.length = 8) :
    ∃ m, run [] [.make (.cons a b), .make (.vector 2 l (some c)), .set 1 (.vref 0) d, .set 0 .cdr l] = .ok m ∧
      get m 0 .type = .ok [some 5] ∧ get m 0 .car = .ok (a.map some) ∧ get m 0 .cdr = .ok (l.map some) ∧ get m 1 (.vref 0) = .ok (d.map some) ∧ get m 1 (.vref 1) = .ok (c.map some) := by
  have ok : Ok [] [.make (.cons a b), .make (.vector 2 l (some c)), .set 1 (.vref 0) d, .set 0 .cdr l]
      [Obj.upd ⟨.pair, initial (.cons a b)⟩ .cdr l, Obj.upd ⟨.vector 2, initial (.vector 2 l (some c))⟩ (.vref 0) d] := by
    refine .make (by simp [New.kind]) trivial ?_ (.make (by simp [New.kind]) (by simp [New.kind, Fits]) ?_ (.set rfl (.vref (by omega)) (by simp) hd (.set rfl .cdr (by simp) hl .done)))
    · intro f v h
      cases f <;> simp [initial] at h <;> subst h <;> first | rfl | assumption
    · intro f v h
      cases f <;> simp [initial] at h <;> subst h <;> first | rfl | assumption
  obtain ⟨m, e, -, h⟩ := C86_partial ok
  exact ⟨m, e, h 0 _ rfl .type .pair, h 0 _ rfl .car .car, h 0 _ rfl .cdr .cdr, h 1 _ rfl (.vref 0) (.vref (by simp [New.kind])), h 1 _ rfl (.vref 1) (.vref (by simp [New.kind]))⟩

/-- the kinds of objects that programs can get hold of -/
def Kind.typed : Kind → Prop
  | .cache | .tc | .chars _ => False
  | _ => True

/-- C86: the tag of an object tells its type. -/
theorem C86_tags {k l : Kind} (hk : k.typed) (hl : l.typed) (h : tag k = tag l) : k = l ∨ (∃ n m, k = .vector n ∧ l = .vector m) ∨ (∃ n m, k = .closure n ∧ l = .closure m) ∨
    (∃ n m, k = .record n ∧ l = .record m) ∨ (∃ n m, k = .env n ∧ l = .env m) ∨ ∃ n m, k = .code n ∧ l = .code m := by
  cases k <;> cases l <;> first
    | exact .inl rfl
    | exact hk.elim
    | exact hl.elim
    | (exfalso; revert h; simp [tag]; done)
    | simp

/-- **C86 negated** (characters).  A character object is four bytes long (the size of the type of the size), and the character is stored in the fifth: making any character, in any state, is undefined. -/
theorem C86_negated_char (m : Mem) (c : Byte) : make m (.char c) = .ub := by
  simp [make, New.kind, allocSize, alloc, stores, sets, set, store, acc, tag]

/-- **C86 negated** (vectors).  The size of a vector is computed in `long`: for a length of `2^60 - 2` or more it overflows. -/
theorem C86_negated_vector (m : Mem) (n : Nat) (hn : 2 ^ 60 - 2 ≤ n) (len : Wd) (init : Option Wd) : make m (.vector n len init) = .ub := by
  have : ¬ 8 * (2 + n) < 2 ^ 63 := by omega
  simp only [make, New.kind, allocSize, if_neg this]
  rfl

/-- **C86 negated** (records).  The size of a record is computed in `int`: with `2^28 - 2` or more fields it overflows. -/
theorem C86_negated_record (m : Mem) (n : Nat) (hn : 2 ^ 28 - 2 ≤ n) (count : List Byte) (rtd : Wd) : make m (.record n count rtd) = .ub := by
  have : ¬ 8 * (2 + n) < 2 ^ 31 := by omega
  simp only [make, New.kind, allocSize, if_neg this]
  rfl

end Minim.Lay
