import Verif.SetS
import Verif.HashScmProps
import Mathlib.Data.List.Forall2
import Mathlib.Data.List.Nodup

set_option autoImplicit false

/-!
# Sets obey set algebra (C62)

Specification: a set is a predicate on keys.
-/

namespace Minim.SetS

open Minim.Hash

variable {K : Type}

/-! ### specification -/

/-- the sets with the given numbers -/
def gets (s : List (K → Bool)) : List Nat → Option (List (K → Bool))
  | [] => some []
  | i :: is =>
    match s[i]?, gets s is with
    | some p, some ps => some (p :: ps)
    | _, _ => none

/-- the elements of a list -/
def ofList (eqv : K → K → Bool) (xs : List K) (k : K) : Bool := xs.any fun x => eqv x k

/-- in one of the sets -/
def union (ps : List (K → Bool)) (k : K) : Bool := ps.any fun p => p k

/-- in all of the sets (there is a first one) -/
def inter : List (K → Bool) → K → Bool
  | [], _ => false
  | ps, k => ps.all fun p => p k

/-- in the first set and in none of the others -/
def minus : List (K → Bool) → K → Bool
  | [], _ => false
  | p :: qs, k => p k && !qs.any fun q => q k

/-- in an odd number of the sets -/
def odd (ps : List (K → Bool)) (k : K) : Bool := decide ((ps.countP fun p => p k) % 2 = 1)

/-- what an operation does to sets, as predicates; `none`: an argument is no set -/
def aStep (eqv : K → K → Bool) (s : List (K → Bool)) : Op K → Option (List (K → Bool))
  | .make xs => some (s ++ [ofList eqv xs])
  | .copy i => (s[i]?).map fun p => s ++ [p]
  | .add i x => (s[i]?).map fun p => s.set i fun k => eqv x k || p k
  | .remove i x => (s[i]?).map fun p => s.set i fun k => !eqv x k && p k
  | .clear i => (s[i]?).map fun _ => s.set i fun _ => false
  | .union is => (gets s is).map fun ps => s ++ [union ps]
  | .intersect is => (gets s is).map fun ps => s ++ [inter ps]
  | .subtract i is => (gets s (i :: is)).map fun ps => s ++ [minus ps]
  | .symDiff i is => (gets s (i :: is)).map fun ps => s ++ [odd ps]

/-- what a program does; an operation that is refused changes nothing -/
def aRun (eqv : K → K → Bool) : List (K → Bool) → List (Op K) → List (K → Bool)
  | s, [] => s
  | s, op :: ops => aRun eqv ((aStep eqv s op).getD s) ops

/-- there are more keys than a table can have buckets (then a table may be too large to grow) -/
def Many (eqv : K → K → Bool) : Prop := ∃ ks : List K, 4611686018427388039 ≤ ks.length ∧ ks.Pairwise fun a b => eqv a b = false

/-! ### lemmas -/

/-- the outcome is a result with the property, or there are too many keys -/
def Post (eqv : K → K → Bool) {α : Type} (r : Res α) (Q : α → Prop) : Prop := (Many eqv ∧ r = .ub) ∨ ∃ a, r = .ok a ∧ Q a

theorem set_self {α : Type} {l : List α} {i : Nat} {x : α} (h : l[i]? = some x) : l.set i x = l := by
  obtain ⟨hi, rfl⟩ := List.getElem?_eq_some_iff.1 h
  exact List.set_getElem_self hi

theorem forall₂_mem {α β : Type} {R S : α → β → Prop} {l : List α} {m : List β} (h : List.Forall₂ R l m) (f : ∀ a b, a ∈ l → b ∈ m → R a b → S a b) : List.Forall₂ S l m := by
  induction h with
  | nil => exact .nil
  | cons h _ ih => exact .cons (f _ _ List.mem_cons_self List.mem_cons_self h) (ih fun a b ha hb => f a b (List.mem_cons_of_mem _ ha) (List.mem_cons_of_mem _ hb))

section
variable {hash : K → Word} {eqv : K → K → Bool} {α β : Type}

theorem Post.ok {a : α} {Q : α → Prop} (h : Q a) : Post eqv (.ok a) Q := .inr ⟨a, rfl, h⟩

theorem Post.bind {r : Res α} {f : α → Res β} {Q : α → Prop} {R : β → Prop} (h : Post eqv r Q) (hf : ∀ a, Q a → Post eqv (f a) R) : Post eqv (r >>= f) R := by
  rcases h with ⟨hm, rfl⟩ | ⟨a, rfl, ha⟩
  · exact .inl ⟨hm, rfl⟩
  · exact hf a ha

theorem Post.imp {r : Res α} {Q R : α → Prop} (h : Post eqv r Q) (hi : ∀ a, Q a → R a) : Post eqv r R := by
  rcases h with h | ⟨a, h1, h2⟩
  · exact .inl h
  · exact .inr ⟨a, h1, hi a h2⟩

/-- the tables as predicates -/
def View (hash : K → Word) (eqv : K → K → Bool) (w : SW K Unit) (ps : List (K → Bool)) : Prop :=
  ∃ ms, SRel hash eqv w ms ∧ ps = ms.map fun m k => (m k).isSome

theorem View.table {w : SW K Unit} {ps : List (K → Bool)} (v : View hash eqv w ps) {t : Nat} {p : K → Bool} (hp : ps[t]? = some p) : ∃ sid, w.tables[t]? = some sid := by
  obtain ⟨ms, r, rfl⟩ := v
  cases ht : w.tables[t]? with
  | some sid => exact ⟨sid, rfl⟩
  | none =>
    have := r.absent ht
    rw [List.getElem?_map, this] at hp
    cases hp

theorem View.length {w : SW K Unit} {ps : List (K → Bool)} (v : View hash eqv w ps) : w.tables.length = ps.length := by
  obtain ⟨ms, r, rfl⟩ := v
  rw [List.length_map, ← r.rel.len, live_length]

theorem View.isSet {w : SW K Unit} {ps : List (K → Bool)} (v : View hash eqv w ps) {t : Nat} {p : K → Bool} (hp : ps[t]? = some p) : isSet w t = true := by
  obtain ⟨sid, h⟩ := v.table hp
  simp [SetS.isSet, h]

theorem View.map {ms : List (K → Option Unit)} {t : Nat} {p : K → Bool} (hp : (ms.map fun m k => (m k).isSome)[t]? = some p) :
    ∃ m, ms[t]? = some m ∧ p = fun k => (m k).isSome := by
  rw [List.getElem?_map, Option.map_eq_some_iff] at hp
  obtain ⟨m, h1, h2⟩ := hp
  exact ⟨m, h1, h2.symm⟩

theorem View.member {w : SW K Unit} {ps : List (K → Bool)} (cons : Consistent hash eqv) (v : View hash eqv w ps) {t : Nat} {p : K → Bool} (hp : ps[t]? = some p) (x : K) :
    setMember hash eqv w t x = .ok (p x) := by
  rw [setMember, if_pos (v.isSet hp)]
  obtain ⟨sid, ht⟩ := v.table hp
  obtain ⟨ms, r, rfl⟩ := v
  obtain ⟨m, hm, rfl⟩ := View.map hp
  have := r.find cons ht hm x
  rw [scmContains, ht]
  dsimp only
  rw [← this]
  cases findCell hash eqv w.heap (w.store sid) x <;> rfl

theorem slots_some : ∀ ks : List K, slots (ks.map some) = .ok ks
  | [] => rfl
  | k :: ks => by rw [List.map_cons, slots, slots_some ks]; rfl

/-- the elements of a set, one of each class -/
def Lists (eqv : K → K → Bool) (p : K → Bool) (ks : List K) : Prop := ks.Pairwise (fun a b => eqv a b = false) ∧ ∀ k, p k = true ↔ ∃ k' ∈ ks, eqv k' k = true

theorem View.toList {w : SW K Unit} {ps : List (K → Bool)} (cons : Consistent hash eqv) (v : View hash eqv w ps) {t : Nat} {p : K → Bool} (hp : ps[t]? = some p) :
    ∃ ks, setToList w t = .ok ks ∧ scmSize w t = .ok ks.length ∧ Lists eqv p ks := by
  obtain ⟨sid, ht⟩ := v.table hp
  have hs := v.isSet hp
  obtain ⟨ms, r, rfl⟩ := v
  obtain ⟨m, hm, rfl⟩ := View.map hp
  have wf := r.wf ht
  obtain ⟨m', hm', hmaps⟩ := r.lookup ht
  rw [hm] at hm'; cases hm'
  have hcell : (w.store sid).cells = (w.store sid).flat.reverse := cells_eq _
  have hlen : (w.store sid).count = (w.store sid).cells.length := by rw [hcell, List.length_reverse]; exact wf.count
  have hu : (w.store sid).cells.Pairwise (fun a b => eqv (w.heap.key a) (w.heap.key b) = false) :=
    (pairwise_perm cons (cells_perm (w.store sid))).2 wf.uniq
  refine ⟨(w.store sid).cells.map w.heap.key, ?_, ?_, List.pairwise_map.2 hu, fun k => ⟨?_, ?_⟩⟩
  · have := fillLoop_eq w.heap.key (w.store sid).cells []
    rw [setToList, if_pos hs, scmKeys, ht]
    dsimp only
    rw [hlen]
    simp only [List.nil_append, List.length_nil] at this
    rw [this, Res.ok_bind, show (List.map (fun c => some (w.heap.key c)) (w.store sid).cells) = ((w.store sid).cells.map w.heap.key).map some by simp [Function.comp_def]]
    exact slots_some _
  · simp only [scmSize, ht, List.length_map, hlen]
  · intro hk
    obtain ⟨x, hv⟩ := Option.isSome_iff_exists.1 hk
    obtain ⟨c, h1, h2, _⟩ := (hmaps k x).2 hv
    exact ⟨_, List.mem_map_of_mem ((cells_perm _).mem_iff.2 h1), h2⟩
  · rintro ⟨k', hk', h2⟩
    obtain ⟨c, h1, rfl⟩ := List.mem_map.1 hk'
    show (m k).isSome = true
    rw [(hmaps k (w.heap.val c)).1 ⟨c, (cells_perm _).mem_iff.1 h1, h2, rfl⟩]; rfl

theorem View.many {w : SW K Unit} {ps : List (K → Bool)} (v : View hash eqv w ps) {t sid : Nat} (ht : w.tables[t]? = some sid)
    (hc : 4611686018427388039 ≤ (w.store sid).count) : Many eqv := by
  obtain ⟨ms, r, rfl⟩ := v
  have wf := r.wf ht
  exact ⟨(w.store sid).flat.map w.heap.key, by rw [List.length_map, ← wf.count]; exact hc, List.pairwise_map.2 wf.uniq⟩

theorem adjust_post {w : SW K Unit} {t sid n2 : Nat} : (4611686018427388039 < n2 ∧ adjust hash w t sid n2 = .ub) ∨ ∃ w', adjust hash w t sid n2 = .ok w' := by
  by_cases hn : n2 ≤ 4611686018427388039
  · obtain ⟨s2, h, -⟩ := adjust_ok (hash := hash) (w := w) (t := t) (sid := sid) hn
    exact .inr ⟨_, h⟩
  · unfold adjust mkStore
    cases h : findSize n2 with
    | ok n => exact .inr ⟨_, rfl⟩
    | ub => exact .inl ⟨by omega, rfl⟩
    | err => unfold findSize at h; split at h <;> cases h
    | oof => unfold findSize at h; split at h <;> cases h

theorem putStore_get {w : SW K Unit} {t sid : Nat} (i : Inv w) (ht : w.tables[t]? = some sid) (s : Store) : (w.putStore sid s).store sid = s := putStore_store i ht s

theorem View.add {w : SW K Unit} {ps : List (K → Bool)} (cons : Consistent hash eqv) (v : View hash eqv w ps) {t : Nat} {p : K → Bool} (hp : ps[t]? = some p) (x : K) :
    Post eqv (setAdd hash eqv w t x) fun w' => View hash eqv w' (ps.set t fun k => eqv x k || p k) := by
  rw [setAdd, if_pos (v.isSet hp)]
  obtain ⟨sid, ht⟩ := v.table hp
  have hmany := v.many ht
  obtain ⟨ms, r, rfl⟩ := v
  obtain ⟨m, hm, rfl⟩ := View.map hp
  have good : ∀ w', scmSet hash eqv w t x () = .ok w' → View hash eqv w' ((ms.map fun m k => (m k).isSome).set t fun k => eqv x k || (m k).isSome) := by
    intro w' e
    refine ⟨_, r.step_ok cons (.set t x ()) e, ?_⟩
    simp only [sAbsStep, hm]
    rw [List.map_set]
    congr 1
    funext k
    cases hx : eqv x k <;> simp [hx]
  cases h : scmSet hash eqv w t x () with
  | ok w' => exact .inr ⟨w', rfl, good w' h⟩
  | _ =>
    left
    rw [scmSet, ht] at h
    dsimp only at h
    cases hf : findCell hash eqv w.heap (w.store sid) x with
    | some c => rw [hf] at h; cases h
    | none =>
      rw [hf] at h
      dsimp only at h
      unfold insertCell incrSize at h
      simp only at h
      rw [putStore_get (w := { w with heap := (w.heap.alloc x ()).1 }) (r.inv.withHeap _) ht] at h
      split at h
      · rcases adjust_post (hash := hash) (w := (({ w with heap := (w.heap.alloc x ()).1 } : SW K Unit).putStore sid
          ((w.store sid).setBucket (hash x) ((w.heap.alloc x ()).2 :: (w.store sid).bucket (hash x)))).putStore sid
            { (w.store sid).setBucket (hash x) ((w.heap.alloc x ()).2 :: (w.store sid).bucket (hash x)) with count := (w.store sid).count + 1 })
          (t := t) (sid := sid) (n2 := (w.store sid).count + 1) with ⟨h1, h2⟩ | ⟨w', h1⟩
        · first
          | exact ⟨hmany (by omega), rfl⟩
          | (exfalso
             simp only [Store.setBucket] at h h2
             rw [h2] at h
             cases h)
        · exfalso
          simp only [Store.setBucket] at h h1
          rw [h1] at h
          cases h
      · cases h

theorem View.remove {w : SW K Unit} {ps : List (K → Bool)} (cons : Consistent hash eqv) (v : View hash eqv w ps) {t : Nat} {p : K → Bool} (hp : ps[t]? = some p) (x : K) :
    Post eqv (setRemove hash eqv w t x) fun w' => View hash eqv w' (ps.set t fun k => !eqv x k && p k) := by
  rw [setRemove, if_pos (v.isSet hp)]
  obtain ⟨sid, ht⟩ := v.table hp
  have hmany := v.many ht
  obtain ⟨ms, r, rfl⟩ := v
  obtain ⟨m, hm, rfl⟩ := View.map hp
  have good : ∀ w', scmDelete hash eqv w t x = .ok w' → View hash eqv w' ((ms.map fun m k => (m k).isSome).set t fun k => !eqv x k && (m k).isSome) := by
    intro w' e
    refine ⟨_, r.step_ok cons (.delete t x) e, ?_⟩
    simp only [sAbsStep, hm]
    rw [List.map_set]
    congr 1
    funext k
    cases hx : eqv x k <;> simp [hx]
  cases h : scmDelete hash eqv w t x with
  | ok w' => exact .inr ⟨w', rfl, good w' h⟩
  | _ =>
    left
    rw [scmDelete, ht] at h
    dsimp only at h
    cases hf : removeIn eqv w.heap x ((w.store sid).bucket (hash x)) with
    | none => rw [hf] at h; cases h
    | some b =>
      rw [hf] at h
      dsimp only at h
      unfold decrSize at h
      simp only at h
      rw [putStore_get r.inv ht] at h
      split at h
      · rcases adjust_post (hash := hash) (w := (w.putStore sid ((w.store sid).setBucket (hash x) b)).putStore sid
            { (w.store sid).setBucket (hash x) b with count := (w.store sid).count - 1 })
          (t := t) (sid := sid) (n2 := (w.store sid).count - 1) with ⟨h1, h2⟩ | ⟨w', h1⟩
        · first
          | exact ⟨hmany (by omega), rfl⟩
          | (exfalso
             simp only [Store.setBucket] at h h2
             rw [h2] at h
             cases h)
        · exfalso
          simp only [Store.setBucket] at h h1
          rw [h1] at h
          cases h
      · cases h

theorem View.clear {w : SW K Unit} {ps : List (K → Bool)} (cons : Consistent hash eqv) (v : View hash eqv w ps) {t : Nat} {p : K → Bool} (hp : ps[t]? = some p) :
    Post eqv (setClear w t) fun w' => View hash eqv w' (ps.set t fun _ => false) := by
  rw [setClear, if_pos (v.isSet hp)]
  obtain ⟨sid, ht⟩ := v.table hp
  obtain ⟨ms, r, rfl⟩ := v
  cases h : scmClear w t with
  | ok w' =>
    refine .inr ⟨w', rfl, _, r.step_ok cons (.clear t) h, ?_⟩
    simp only [sAbsStep]
    rw [List.map_set]
    rfl
  | _ => rw [scmClear, ht] at h; cases h

theorem View.make {w : SW K Unit} {ps : List (K → Bool)} (cons : Consistent hash eqv) (v : View hash eqv w ps) :
    Post eqv (scmMake w) fun w' => View hash eqv w' (ps ++ [fun _ => false]) := by
  obtain ⟨ms, r, rfl⟩ := v
  cases h : scmMake w with
  | ok w' =>
    refine .inr ⟨w', rfl, _, r.step_ok cons .make h, ?_⟩
    simp only [sAbsStep, List.map_append, List.map_cons, List.map_nil]
    rfl
  | _ =>
    obtain ⟨m, hm⟩ := findSize_ok (hint := 0) (by omega)
    simp only [scmMake, mkStore, hm, Res.ok_bind, Res.pure_eq] at h
    cases h

theorem View.addAll (cons : Consistent hash eqv) {t : Nat} : ∀ (xs : List K) {w : SW K Unit} {ps : List (K → Bool)} {p : K → Bool}, View hash eqv w ps → ps[t]? = some p →
    Post eqv (addAll hash eqv t w xs) fun w' => View hash eqv w' (ps.set t fun k => (xs.any fun x => eqv x k) || p k)
  | [], w, ps, p, v, hp => by
    refine Post.ok ?_
    have : (fun k => (([] : List K).any fun x => eqv x k) || p k) = p := by funext k; simp
    rw [this, set_self hp]
    exact v
  | x :: xs, w, ps, p, v, hp => by
    refine (v.add cons hp x).bind fun w' v' => ?_
    refine (View.addAll cons xs v' (List.getElem?_set_self (List.getElem?_eq_some_iff.1 hp).1)).imp fun w'' v'' => ?_
    rw [List.set_set] at v''
    have : (fun k => ((x :: xs).any fun x => eqv x k) || p k) = fun k => (xs.any fun x => eqv x k) || (eqv x k || p k) := by
      funext k
      simp only [List.any_cons]
      cases eqv x k <;> cases xs.any (fun x => eqv x k) <;> rfl
    rw [this]
    exact v''

theorem set_last {α : Type} (l : List α) (x y : α) : (l ++ [x]).set l.length y = l ++ [y] := by simp

theorem get_last {α : Type} (l : List α) (x : α) : (l ++ [x])[l.length]? = some x := by simp

theorem View.makeSet {w : SW K Unit} {ps : List (K → Bool)} (cons : Consistent hash eqv) (v : View hash eqv w ps) (xs : List K) :
    Post eqv (makeSet hash eqv w xs) fun r => View hash eqv r.1 (ps ++ [fun k => xs.any fun x => eqv x k]) ∧ r.2 = ps.length := by
  refine (v.make cons).bind fun w1 v1 => ?_
  rw [v.length]
  refine (View.addAll cons xs v1 (get_last _ _)).bind fun w2 v2 => ?_
  refine Post.ok ⟨?_, rfl⟩
  rw [set_last] at v2
  simpa using v2

/-- membership depends on the class only -/
theorem Lists.any {p : K → Bool} {ks : List K} (h : Lists eqv p ks) : (fun k => ks.any fun x => eqv x k) = p := by
  funext k
  rw [Bool.eq_iff_iff, h.2 k, List.any_eq_true]

/-- a new set with the elements of another -/
theorem View.copyInto {w : SW K Unit} {ps : List (K → Bool)} (cons : Consistent hash eqv) (v : View hash eqv w ps) {t : Nat} {p : K → Bool} (hp : ps[t]? = some p) :
    Post eqv (do
      let (w, c) ← SetS.makeSet hash eqv w []
      let xs ← setToList w t
      let w ← SetS.addAll hash eqv c w xs
      pure (w, c)) fun r => View hash eqv r.1 (ps ++ [p]) ∧ r.2 = ps.length := by
  refine (v.makeSet cons []).bind fun r hr => ?_
  obtain ⟨w1, c⟩ := r
  obtain ⟨v1, rfl⟩ := hr
  dsimp only at v1 ⊢
  have hp1 : (ps ++ [fun k => ([] : List K).any fun x => eqv x k])[t]? = some p := by
    rw [List.getElem?_append_left (List.getElem?_eq_some_iff.1 hp).1, hp]
  obtain ⟨ks, e1, -, e2⟩ := v1.toList cons hp1
  rw [e1, Res.ok_bind]
  refine (View.addAll cons ks v1 (get_last _ _)).bind fun w2 v2 => ?_
  refine Post.ok ⟨?_, rfl⟩
  rw [set_last] at v2
  simp only [List.any_nil, Bool.or_false] at v2
  rw [e2.any] at v2
  exact v2

theorem View.copy {w : SW K Unit} {ps : List (K → Bool)} (cons : Consistent hash eqv) (v : View hash eqv w ps) {t : Nat} {p : K → Bool} (hp : ps[t]? = some p) :
    Post eqv (setCopy hash eqv w t) fun r => View hash eqv r.1 (ps ++ [p]) ∧ r.2 = ps.length := by
  rw [setCopy, if_pos (v.isSet hp)]
  exact v.copyInto cons hp

theorem View.subsetLoop {w : SW K Unit} {ps : List (K → Bool)} (cons : Consistent hash eqv) (v : View hash eqv w ps) {t : Nat} {p : K → Bool} (hp : ps[t]? = some p) :
    ∀ xs : List K, SetS.subsetLoop hash eqv w t xs = .ok (xs.all p)
  | [] => rfl
  | x :: xs => by
    rw [SetS.subsetLoop, v.member cons hp, Res.ok_bind, List.all_cons]
    cases h : p x
    · rfl
    · simp [View.subsetLoop cons v hp xs]

/-- membership depends on the class only -/
theorem View.compat {w : SW K Unit} {ps : List (K → Bool)} (cons : Consistent hash eqv) (v : View hash eqv w ps) {t : Nat} {p : K → Bool} (hp : ps[t]? = some p) {a b : K}
    (h : eqv a b = true) : p a = p b := by
  obtain ⟨ks, -, -, e⟩ := v.toList cons hp
  rw [Bool.eq_iff_iff, e.2 a, e.2 b]
  constructor
  · rintro ⟨k, hk, h1⟩; exact ⟨k, hk, cons.trans _ _ _ h1 h⟩
  · rintro ⟨k, hk, h1⟩; exact ⟨k, hk, cons.trans _ _ _ h1 (cons.symm _ _ h)⟩

theorem View.subset {w : SW K Unit} {ps : List (K → Bool)} (cons : Consistent hash eqv) (v : View hash eqv w ps) {s t : Nat} {p q : K → Bool} (hp : ps[s]? = some p) (hq : ps[t]? = some q) :
    ∃ b, SetS.subset hash eqv w s t = .ok b ∧ (b = true ↔ ∀ k, p k = true → q k = true) := by
  obtain ⟨ks, e1, -, e2⟩ := v.toList cons hp
  refine ⟨ks.all q, ?_, ?_⟩
  · rw [SetS.subset, if_pos (by rw [v.isSet hp, v.isSet hq]; rfl), e1, Res.ok_bind]
    exact v.subsetLoop cons hq ks
  · rw [List.all_eq_true]
    constructor
    · intro h k hk
      obtain ⟨k', h1, h2⟩ := (e2.2 k).1 hk
      rw [← v.compat cons hq h2]
      exact h k' h1
    · intro h x hx
      exact h x ((e2.2 x).2 ⟨x, hx, cons.refl x⟩)

theorem View.unionLoop (cons : Consistent hash eqv) {u : Nat} : ∀ (ss : List Nat) (qs : List (K → Bool)) {w : SW K Unit} {ps : List (K → Bool)} {p : K → Bool}, View hash eqv w ps → ps[u]? = some p →
    (∀ s ∈ ss, s ≠ u) → List.Forall₂ (fun s q => ps[s]? = some q) ss qs →
    Post eqv (SetS.unionLoop hash eqv u w ss) fun w' => View hash eqv w' (ps.set u fun k => p k || qs.any fun q => q k)
  | [], _, w, ps, p, v, hp, _, hq => by
    cases hq
    refine Post.ok ?_
    have : (fun k => p k || ([] : List (K → Bool)).any fun q => q k) = p := by funext k; simp
    rw [this, set_self hp]
    exact v
  | s :: ss, _, w, ps, p, v, hp, hne, hq => by
    cases hq with
    | @cons _ q _ qs h1 h2 =>
      rw [SetS.unionLoop]
      obtain ⟨ks, e1, -, e2⟩ := v.toList cons h1
      rw [e1, Res.ok_bind]
      refine (View.addAll cons ks v hp).bind fun w1 v1 => ?_
      rw [show (fun k => (ks.any fun x => eqv x k) || p k) = fun k => q k || p k by rw [← e2.any]] at v1
      refine (View.unionLoop cons ss qs v1 (List.getElem?_set_self (List.getElem?_eq_some_iff.1 hp).1) (fun s hs => hne s (List.mem_cons_of_mem _ hs)) ?_).imp fun w2 v2 => ?_
      · refine forall₂_mem h2 fun s q' hs _ h => ?_
        rw [List.getElem?_set_ne (Ne.symm (hne s (List.mem_cons_of_mem _ hs))), h]
      · rw [List.set_set] at v2
        have : (fun k => p k || (q :: qs).any fun q => q k) = fun k => (q k || p k) || qs.any fun q => q k := by
          funext k
          simp only [List.any_cons]
          cases p k <;> cases q k <;> rfl
        rw [this]
        exact v2

theorem any_compat {p : K → Bool} (cp : ∀ a b, eqv a b = true → p a = p b) (xs : List K) (k : K) :
    (xs.any fun x => eqv x k && p x) = ((xs.any fun x => eqv x k) && p k) := by
  induction xs with
  | nil => rfl
  | cons x xs ih =>
    simp only [List.any_cons, ih]
    cases h : eqv x k
    · simp
    · rw [cp _ _ h]
      cases p k <;> simp

theorem View.addIf (cons : Consistent hash eqv) {s i : Nat} (hne : s ≠ i) : ∀ (xs : List K) {w : SW K Unit} {ps : List (K → Bool)} {p q : K → Bool}, View hash eqv w ps →
    ps[s]? = some q → ps[i]? = some p → Post eqv (addIf hash eqv s i w xs) fun w' => View hash eqv w' (ps.set i fun k => ((xs.any fun x => eqv x k) && q k) || p k)
  | [], w, ps, p, q, v, _, hp => by
    refine Post.ok ?_
    have : (fun k => ((([] : List K).any fun x => eqv x k) && q k) || p k) = p := by funext k; simp
    rw [this, set_self hp]
    exact v
  | x :: xs, w, ps, p, q, v, hq, hp => by
    have e : SetS.addIf hash eqv s i w (x :: xs) = ((if q x then setAdd hash eqv w i x else pure w) >>= fun w => SetS.addIf hash eqv s i w xs) := by
      rw [SetS.addIf, v.member cons hq, Res.ok_bind]
      cases q x <;> rfl
    rw [e]
    have step : Post eqv (if q x then setAdd hash eqv w i x else pure w) fun w' => View hash eqv w' (ps.set i fun k => (eqv x k && q k) || p k) := by
      cases h : q x
      · rw [if_neg (by simp)]
        refine Post.ok ?_
        have : (fun k => (eqv x k && q k) || p k) = p := by
          funext k
          cases he : eqv x k
          · rfl
          · rw [← v.compat cons hq he, h]; rfl
        rw [this, set_self hp]
        exact v
      · rw [if_pos rfl]
        refine (v.add cons hp x).imp fun w' v' => ?_
        have : (fun k => (eqv x k && q k) || p k) = fun k => eqv x k || p k := by
          funext k
          cases he : eqv x k
          · rfl
          · rw [← v.compat cons hq he, h]; rfl
        rw [this]
        exact v'
    refine step.bind fun w' v' => ?_
    refine (View.addIf cons hne xs (q := q) v' ?_ (List.getElem?_set_self (List.getElem?_eq_some_iff.1 hp).1)).imp fun w'' v'' => ?_
    · rw [List.getElem?_set_ne (Ne.symm hne), hq]
    · rw [List.set_set] at v''
      have : (fun k => (((x :: xs).any fun x => eqv x k) && q k) || p k) = fun k => ((xs.any fun x => eqv x k) && q k) || ((eqv x k && q k) || p k) := by
        funext k
        simp only [List.any_cons]
        cases eqv x k <;> cases xs.any (fun x => eqv x k) <;> cases q k <;> simp
      rw [this]
      exact v''

theorem View.removeIf (cons : Consistent hash eqv) {s i : Nat} (hne : s ≠ i) : ∀ (xs : List K) {w : SW K Unit} {ps : List (K → Bool)} {p q : K → Bool}, View hash eqv w ps →
    ps[s]? = some q → ps[i]? = some p → Post eqv (removeIf hash eqv s i w xs) fun w' => View hash eqv w' (ps.set i fun k => !((xs.any fun x => eqv x k) && q k) && p k)
  | [], w, ps, p, q, v, _, hp => by
    refine Post.ok ?_
    have : (fun k => !((([] : List K).any fun x => eqv x k) && q k) && p k) = p := by funext k; simp
    rw [this, set_self hp]
    exact v
  | x :: xs, w, ps, p, q, v, hq, hp => by
    have e : SetS.removeIf hash eqv s i w (x :: xs) = ((if q x then setRemove hash eqv w i x else pure w) >>= fun w => SetS.removeIf hash eqv s i w xs) := by
      rw [SetS.removeIf, v.member cons hq, Res.ok_bind]
      cases q x <;> rfl
    rw [e]
    have step : Post eqv (if q x then setRemove hash eqv w i x else pure w) fun w' => View hash eqv w' (ps.set i fun k => !(eqv x k && q k) && p k) := by
      cases h : q x
      · rw [if_neg (by simp)]
        refine Post.ok ?_
        have : (fun k => !(eqv x k && q k) && p k) = p := by
          funext k
          cases he : eqv x k
          · rfl
          · rw [← v.compat cons hq he, h]; rfl
        rw [this, set_self hp]
        exact v
      · rw [if_pos rfl]
        refine (v.remove cons hp x).imp fun w' v' => ?_
        have : (fun k => !(eqv x k && q k) && p k) = fun k => !eqv x k && p k := by
          funext k
          cases he : eqv x k
          · rfl
          · rw [← v.compat cons hq he, h]; rfl
        rw [this]
        exact v'
    refine step.bind fun w' v' => ?_
    refine (View.removeIf cons hne xs (q := q) v' ?_ (List.getElem?_set_self (List.getElem?_eq_some_iff.1 hp).1)).imp fun w'' v'' => ?_
    · rw [List.getElem?_set_ne (Ne.symm hne), hq]
    · rw [List.set_set] at v''
      have : (fun k => !(((x :: xs).any fun x => eqv x k) && q k) && p k) = fun k => !((xs.any fun x => eqv x k) && q k) && (!(eqv x k && q k) && p k) := by
        funext k
        simp only [List.any_cons]
        cases eqv x k <;> cases xs.any (fun x => eqv x k) <;> cases q k <;> simp
      rw [this]
      exact v''

theorem View.toggle (cons : Consistent hash eqv) {d : Nat} : ∀ (xs : List K) {w : SW K Unit} {ps : List (K → Bool)} {p : K → Bool}, View hash eqv w ps →
    ps[d]? = some p → xs.Pairwise (fun a b => eqv a b = false) →
    Post eqv (toggle hash eqv d w xs) fun w' => View hash eqv w' (ps.set d fun k => p k ^^ (xs.any fun x => eqv x k))
  | [], w, ps, p, v, hp, _ => by
    refine Post.ok ?_
    have : (fun k => p k ^^ (([] : List K).any fun x => eqv x k)) = p := by funext k; simp
    rw [this, set_self hp]
    exact v
  | x :: xs, w, ps, p, v, hp, hd => by
    rw [List.pairwise_cons] at hd
    have e : SetS.toggle hash eqv d w (x :: xs) = ((if p x then setRemove hash eqv w d x else setAdd hash eqv w d x) >>= fun w => SetS.toggle hash eqv d w xs) := by
      rw [SetS.toggle, v.member cons hp, Res.ok_bind]
      cases p x <;> rfl
    rw [e]
    have step : Post eqv (if p x then setRemove hash eqv w d x else setAdd hash eqv w d x) fun w' => View hash eqv w' (ps.set d fun k => p k ^^ eqv x k) := by
      cases h : p x
      · rw [if_neg (by simp)]
        refine (v.add cons hp x).imp fun w' v' => ?_
        have : (fun k => p k ^^ eqv x k) = fun k => eqv x k || p k := by
          funext k
          cases he : eqv x k
          · cases p k <;> rfl
          · rw [← v.compat cons hp he, h]; rfl
        rw [this]
        exact v'
      · rw [if_pos rfl]
        refine (v.remove cons hp x).imp fun w' v' => ?_
        have : (fun k => p k ^^ eqv x k) = fun k => !eqv x k && p k := by
          funext k
          cases he : eqv x k
          · cases p k <;> rfl
          · rw [← v.compat cons hp he, h]; rfl
        rw [this]
        exact v'
    refine step.bind fun w' v' => ?_
    refine (View.toggle cons xs v' (List.getElem?_set_self (List.getElem?_eq_some_iff.1 hp).1) hd.2).imp fun w'' v'' => ?_
    rw [List.set_set] at v''
    have : (fun k => p k ^^ ((x :: xs).any fun x => eqv x k)) = fun k => (p k ^^ eqv x k) ^^ (xs.any fun x => eqv x k) := by
      funext k
      simp only [List.any_cons]
      cases he : eqv x k
      · cases xs.any (fun x => eqv x k) <;> cases p k <;> rfl
      · have : (xs.any fun x => eqv x k) = false := by
          rw [List.any_eq_false]
          intro y hy
          intro h2
          have := hd.1 y hy
          rw [cons.trans _ _ _ he (cons.symm _ _ h2)] at this
          cases this
        rw [this]
        cases p k <;> rfl
    rw [this]
    exact v''

/-- a new set `p` was made -/
def New (hash : K → Word) (eqv : K → K → Bool) (ps : List (K → Bool)) (p : K → Bool) (r : SW K Unit × Nat) : Prop :=
  ∃ es, View hash eqv r.1 (ps ++ es) ∧ ps.length ≤ r.2 ∧ (ps ++ es)[r.2]? = some p

theorem New.one {ps : List (K → Bool)} {p : K → Bool} {r : SW K Unit × Nat} (h : View hash eqv r.1 (ps ++ [p]) ∧ r.2 = ps.length) : New hash eqv ps p r :=
  ⟨[p], h.1, h.2 ▸ Nat.le_refl _, h.2 ▸ get_last _ _⟩

/-- the argument sets -/
abbrev Args (ps : List (K → Bool)) (ss : List Nat) (qs : List (K → Bool)) : Prop := List.Forall₂ (fun s q => ps[s]? = some q) ss qs

theorem Args.app {ps : List (K → Bool)} {ss : List Nat} {qs : List (K → Bool)} (h : Args ps ss qs) (es : List (K → Bool)) : Args (ps ++ es) ss qs :=
  h.imp fun s q h => by rw [List.getElem?_append_left (List.getElem?_eq_some_iff.1 h).1, h]

theorem Args.lt {ps : List (K → Bool)} {ss : List Nat} {qs : List (K → Bool)} (h : Args ps ss qs) : ∀ s ∈ ss, s < ps.length := by
  induction h with
  | nil => intro s hs; cases hs
  | cons h1 _ ih =>
    intro s hs
    rcases List.mem_cons.1 hs with rfl | hs
    · exact (List.getElem?_eq_some_iff.1 h1).1
    · exact ih s hs

theorem Args.isSet {w : SW K Unit} {ps : List (K → Bool)} (v : View hash eqv w ps) {ss : List Nat} {qs : List (K → Bool)} (h : Args ps ss qs) : ss.all (isSet w) = true := by
  induction h with
  | nil => rfl
  | cons h1 _ ih => rw [List.all_cons, v.isSet h1, ih]; rfl

theorem View.union {w : SW K Unit} {ps : List (K → Bool)} (cons : Consistent hash eqv) (v : View hash eqv w ps) {ss : List Nat} {qs : List (K → Bool)} (h : Args ps ss qs) :
    Post eqv (setUnion hash eqv w ss) (New hash eqv ps (SetS.union qs)) := by
  unfold setUnion
  rw [if_pos (h.isSet v)]
  match ss, qs, h with
  | [], _, .nil => exact (v.makeSet cons []).imp fun r hr => New.one hr
  | [s], _, .cons h1 .nil =>
    refine (v.copyInto cons h1).imp fun r hr => ?_
    refine New.one ?_
    have : ∀ q : K → Bool, SetS.union [q] = q := fun q => by funext k; simp [SetS.union]
    rw [this]
    exact hr
  | s :: s' :: ss, qs, h =>
    refine (v.makeSet cons []).bind fun r hr => ?_
    obtain ⟨w1, c⟩ := r
    obtain ⟨v1, rfl⟩ := hr
    dsimp only at v1 ⊢
    refine (View.unionLoop cons (s :: s' :: ss) qs v1 (get_last _ _) (fun s hs => Nat.ne_of_lt (h.lt s hs)) (h.app _)).bind fun w2 v2 => ?_
    refine Post.ok (New.one ⟨?_, rfl⟩)
    rw [set_last] at v2
    simpa [show SetS.union qs = fun k => qs.any fun q => q k from rfl] using v2

theorem View.count {w : SW K Unit} {ps : List (K → Bool)} (cons : Consistent hash eqv) (v : View hash eqv w ps) {t : Nat} {p : K → Bool} (hp : ps[t]? = some p) :
    ∃ ks, setToList w t = .ok ks ∧ setCount w t = .ok ks.length ∧ Lists eqv p ks := by
  rw [setCount, if_pos (v.isSet hp)]
  exact v.toList cons hp

theorem View.interLoop (cons : Consistent hash eqv) : ∀ (ss : List Nat) (qs : List (K → Bool)) {w : SW K Unit} {ps : List (K → Bool)} (es : List (K → Bool)) {p : K → Bool} {i : Nat},
    View hash eqv w (ps ++ es) → ps.length ≤ i → (ps ++ es)[i]? = some p → Args ps ss qs → Post eqv (interLoop hash eqv w ss i) (New hash eqv ps fun k => p k && qs.all fun q => q k)
  | [], _, w, ps, es, p, i, v, hi, hp, .nil => by
    refine Post.ok ⟨es, v, hi, ?_⟩
    simpa using hp
  | s :: ss, _, w, ps, es, p, i, v, hi, hp, .cons (b := q) (l₂ := qs) h1 h2 => by
    rw [SetS.interLoop]
    obtain ⟨ks, e1, e2, e3⟩ := v.count cons hp
    rw [e2, Res.ok_bind]
    by_cases h0 : ks.length = 0
    · rw [if_pos h0]
      refine Post.ok ⟨es, v, hi, ?_⟩
      have hz : ∀ k, p k = false := by
        intro k
        cases hk : p k
        · rfl
        · obtain ⟨k', hk', -⟩ := (e3.2 k).1 hk
          rw [List.length_eq_zero_iff.1 h0] at hk'
          cases hk'
      have : (fun k => p k && (q :: qs).all fun q => q k) = p := by
        funext k; rw [hz]; rfl
      rw [this]
      exact hp
    · rw [if_neg h0]
      refine (v.makeSet cons []).bind fun r hr => ?_
      obtain ⟨w1, j⟩ := r
      obtain ⟨v1, rfl⟩ := hr
      dsimp only at v1 ⊢
      have hp1 := List.getElem?_append_left (l₂ := [fun k => ([] : List K).any fun x => eqv x k]) (List.getElem?_eq_some_iff.1 hp).1
      rw [hp] at hp1
      obtain ⟨ks', f1, -, f3⟩ := v1.toList cons hp1
      rw [f1, Res.ok_bind]
      have hs : s < ps.length := (List.getElem?_eq_some_iff.1 h1).1
      have hq1 : ((ps ++ es) ++ [fun k => ([] : List K).any fun x => eqv x k])[s]? = some q := by
        rw [List.append_assoc, List.getElem?_append_left hs, h1]
      refine (View.addIf cons (by rw [List.length_append]; omega) ks' v1 hq1 (get_last _ _)).bind fun w2 v2 => ?_
      rw [set_last, List.append_assoc] at v2
      refine (View.interLoop cons ss qs _ v2 (by rw [List.length_append]; omega) (by rw [← List.append_assoc]; exact get_last _ _) h2).imp fun r hr => ?_
      have : (fun k => p k && (q :: qs).all fun q => q k) = fun k => (((ks'.any fun x => eqv x k) && q k) || ([] : List K).any fun x => eqv x k) && qs.all fun q => q k := by
        funext k
        have := congrFun f3.any k
        rw [this]
        simp only [List.all_cons, List.any_nil, Bool.or_false, Bool.and_assoc]
      rw [this]
      exact hr

theorem View.intersect {w : SW K Unit} {ps : List (K → Bool)} (cons : Consistent hash eqv) (v : View hash eqv w ps) {ss : List Nat} {qs : List (K → Bool)} (h : Args ps ss qs) :
    Post eqv (setIntersect hash eqv w ss) (New hash eqv ps (inter qs)) := by
  unfold setIntersect
  rw [if_pos (h.isSet v)]
  match ss, qs, h with
  | [], _, .nil => exact (v.makeSet cons []).imp fun r hr => New.one hr
  | s :: ss, _, .cons (b := q) (l₂ := qs) h1 h2 =>
    dsimp only
    refine (v.makeSet cons []).bind fun r hr => ?_
    obtain ⟨w1, i⟩ := r
    obtain ⟨v1, rfl⟩ := hr
    dsimp only at v1 ⊢
    have hp1 := List.getElem?_append_left (l₂ := [fun k => ([] : List K).any fun x => eqv x k]) (List.getElem?_eq_some_iff.1 h1).1
    rw [h1] at hp1
    obtain ⟨ks, f1, -, f3⟩ := v1.toList cons hp1
    rw [f1, Res.ok_bind]
    refine (View.addAll cons ks v1 (get_last _ _)).bind fun w2 v2 => ?_
    rw [set_last] at v2
    simp only [List.any_nil, Bool.or_false] at v2
    rw [f3.any] at v2
    refine (View.interLoop cons ss qs _ v2 (Nat.le_refl _) (get_last _ _) h2).imp fun r hr => ?_
    have : inter (q :: qs) = fun k => q k && qs.all fun q => q k := by
      funext k; simp [inter]
    rw [this]
    exact hr

theorem View.subLoop (cons : Consistent hash eqv) {ps : List (K → Bool)} : ∀ (ss : List Nat) (qs : List (K → Bool)) {w : SW K Unit} {p : K → Bool}, View hash eqv w (ps ++ [p]) → Args ps ss qs →
    Post eqv (subLoop hash eqv ps.length w ss) fun w' => View hash eqv w' (ps ++ [fun k => p k && !qs.any fun q => q k])
  | [], _, w, p, v, .nil => by
    refine Post.ok ?_
    simpa using v
  | s :: ss, _, w, p, v, .cons (b := q) (l₂ := qs) h1 h2 => by
    rw [SetS.subLoop]
    obtain ⟨ks, e1, -, e3⟩ := v.toList cons (get_last _ _)
    rw [e1, Res.ok_bind]
    have hs : s < ps.length := (List.getElem?_eq_some_iff.1 h1).1
    refine (View.removeIf cons (Nat.ne_of_lt hs) ks v (by rw [List.getElem?_append_left hs, h1]) (get_last _ _)).bind fun w1 v1 => ?_
    rw [set_last] at v1
    refine (View.subLoop cons ss qs v1 h2).imp fun w2 v2 => ?_
    have : (fun k => p k && !(q :: qs).any fun q => q k) = fun k => (!((ks.any fun x => eqv x k) && q k) && p k) && !qs.any fun q => q k := by
      funext k
      have := congrFun e3.any k
      rw [this, List.any_cons]
      cases p k <;> cases q k <;> simp
    rw [this]
    exact v2

theorem View.subtract {w : SW K Unit} {ps : List (K → Bool)} (cons : Consistent hash eqv) (v : View hash eqv w ps) {s : Nat} {ss : List Nat} {qs : List (K → Bool)} (h : Args ps (s :: ss) qs) :
    Post eqv (setSubtract hash eqv w s ss) (New hash eqv ps (minus qs)) := by
  rw [setSubtract, if_pos (h.isSet v)]
  cases h with
  | @cons _ q _ qs h1 h2 =>
    refine (v.copy cons h1).bind fun r hr => ?_
    obtain ⟨w1, i⟩ := r
    obtain ⟨v1, rfl⟩ := hr
    dsimp only at v1 ⊢
    exact (View.subLoop cons ss qs v1 h2).bind fun w2 v2 => Post.ok (New.one ⟨v2, rfl⟩)

theorem odd_cons (q : K → Bool) (qs : List (K → Bool)) (k : K) : odd (q :: qs) k = (q k ^^ odd qs k) := by
  unfold odd
  rw [List.countP_cons]
  cases h : q k
  · simp
  · simp only [if_true]
    by_cases h2 : (qs.countP fun p => p k) % 2 = 1
    · rw [decide_eq_true h2, decide_eq_false (by omega)]; rfl
    · rw [decide_eq_false h2, decide_eq_true (by omega)]; rfl

theorem View.symLoop (cons : Consistent hash eqv) {ps : List (K → Bool)} : ∀ (ss : List Nat) (qs : List (K → Bool)) {w : SW K Unit} {p : K → Bool}, View hash eqv w (ps ++ [p]) → Args ps ss qs →
    Post eqv (symLoop hash eqv ps.length w ss) fun w' => View hash eqv w' (ps ++ [fun k => p k ^^ odd qs k])
  | [], _, w, p, v, .nil => by
    refine Post.ok ?_
    have : (fun k => p k ^^ odd [] k) = p := by funext k; simp [odd]
    rw [this]
    exact v
  | s :: ss, _, w, p, v, .cons (b := q) (l₂ := qs) h1 h2 => by
    rw [SetS.symLoop]
    have hs : s < ps.length := (List.getElem?_eq_some_iff.1 h1).1
    obtain ⟨ks, e1, -, e3⟩ := v.toList cons (t := s) (p := q) (by rw [List.getElem?_append_left hs, h1])
    rw [e1, Res.ok_bind]
    refine (View.toggle cons ks v (get_last _ _) e3.1).bind fun w1 v1 => ?_
    rw [set_last] at v1
    refine (View.symLoop cons ss qs v1 h2).imp fun w2 v2 => ?_
    have : (fun k => p k ^^ odd (q :: qs) k) = fun k => (p k ^^ (ks.any fun x => eqv x k)) ^^ odd qs k := by
      funext k
      have := congrFun e3.any k
      rw [this, odd_cons]
      cases p k <;> cases q k <;> cases odd qs k <;> rfl
    rw [this]
    exact v2

theorem View.symDiff {w : SW K Unit} {ps : List (K → Bool)} (cons : Consistent hash eqv) (v : View hash eqv w ps) {s : Nat} {ss : List Nat} {qs : List (K → Bool)} (h : Args ps (s :: ss) qs) :
    Post eqv (setSymDiff hash eqv w s ss) (New hash eqv ps (odd qs)) := by
  rw [setSymDiff, if_pos (h.isSet v)]
  cases h with
  | @cons _ q _ qs h1 h2 =>
    refine (v.copy cons h1).bind fun r hr => ?_
    obtain ⟨w1, i⟩ := r
    obtain ⟨v1, rfl⟩ := hr
    dsimp only at v1 ⊢
    refine (View.symLoop cons ss qs v1 h2).bind fun w2 v2 => Post.ok (New.one ⟨?_, rfl⟩)
    have : odd (q :: qs) = fun k => q k ^^ odd qs k := by funext k; exact odd_cons _ _ _
    rw [this]
    exact v2

/-- the sets a program knows, as predicates -/
structure Regs (hash : K → Word) (eqv : K → K → Bool) (s : St K) (ss : List (K → Bool)) (ps : List (K → Bool)) : Prop where
  view : View hash eqv s.w ps
  nodup : s.regs.Nodup
  sets : Args ps s.regs ss

theorem Regs.get {s : St K} {ss ps : List (K → Bool)} (r : Regs hash eqv s ss ps) {i t : Nat} (h : s.regs[i]? = some t) : ∃ p, ss[i]? = some p ∧ ps[t]? = some p := by
  obtain ⟨hi, rfl⟩ := List.getElem?_eq_some_iff.1 h
  have hl := r.sets.length_eq
  refine ⟨ss[i]'(hl ▸ hi), List.getElem?_eq_getElem _, ?_⟩
  exact (List.forall₂_iff_get.1 r.sets).2 i hi (hl ▸ hi)

theorem Regs.absent {s : St K} {ss ps : List (K → Bool)} (r : Regs hash eqv s ss ps) {i : Nat} (h : s.regs[i]? = none) : ss[i]? = none := by
  rw [List.getElem?_eq_none_iff] at h ⊢
  exact r.sets.length_eq ▸ h

theorem Regs.args {s : St K} {ss ps : List (K → Bool)} (r : Regs hash eqv s ss ps) : ∀ is : List Nat,
    (args s is = .err ∧ gets ss is = none) ∨ ∃ ts qs, args s is = .ok ts ∧ gets ss is = some qs ∧ Args ps ts qs
  | [] => .inr ⟨[], [], rfl, rfl, .nil⟩
  | i :: is => by
    unfold SetS.args gets
    cases h : s.regs[i]? with
    | none => rw [r.absent h]; exact .inl ⟨rfl, rfl⟩
    | some t =>
      obtain ⟨p, h1, h2⟩ := r.get h
      rw [h1]
      dsimp only
      rcases r.args is with ⟨h3, h4⟩ | ⟨ts, qs, h3, h4, h5⟩
      · rw [h3, h4]; exact .inl ⟨rfl, rfl⟩
      · rw [h3, h4]; exact .inr ⟨_, _, rfl, rfl, .cons h2 h5⟩

theorem Regs.new {s : St K} {ss ps : List (K → Bool)} (r : Regs hash eqv s ss ps) {p : K → Bool} {x : SW K Unit × Nat} (h : New hash eqv ps p x) :
    ∃ ps', Regs hash eqv (s.push x) (ss ++ [p]) ps' := by
  obtain ⟨es, v, h1, h2⟩ := h
  refine ⟨_, v, ?_, List.rel_append (r.sets.app es) (.cons h2 .nil)⟩
  show (s.regs ++ [x.2]).Nodup
  rw [List.nodup_append]
  refine ⟨r.nodup, by simp, ?_⟩
  intro a ha b hb
  have := r.sets.lt a ha
  rw [List.mem_singleton.1 hb]
  omega

theorem Regs.upd {s : St K} {ss ps : List (K → Bool)} (r : Regs hash eqv s ss ps) {i t : Nat} (h : s.regs[i]? = some t) {p : K → Bool} {w' : SW K Unit} (v : View hash eqv w' (ps.set t p)) :
    ∃ ps', Regs hash eqv { s with w := w' } (ss.set i p) ps' := by
  refine ⟨_, v, r.nodup, ?_⟩
  rw [Args, List.forall₂_iff_get]
  have hl := r.sets.length_eq
  refine ⟨by rw [List.length_set]; exact hl, fun j h1 h2 => ?_⟩
  obtain ⟨hi, ht⟩ := List.getElem?_eq_some_iff.1 h
  have hj := (List.forall₂_iff_get.1 r.sets).2 j h1 (hl ▸ h1)
  by_cases hij : j = i
  · subst hij
    simp only [List.get_eq_getElem, List.getElem_set_self] at hj ⊢
    rw [ht] at hj ⊢
    exact List.getElem?_set_self (List.getElem?_eq_some_iff.1 hj).1
  · simp only [List.get_eq_getElem] at hj ⊢
    rw [List.getElem_set_ne (Ne.symm hij), List.getElem?_set_ne, hj]
    intro e
    rw [← ht] at e
    exact hij ((List.Nodup.getElem_inj_iff r.nodup).1 e).symm

theorem Regs.step {s : St K} {ss ps : List (K → Bool)} (cons : Consistent hash eqv) (r : Regs hash eqv s ss ps) (op : Op K) :
    (step hash eqv s op = .err ∧ aStep eqv ss op = none) ∨ ∃ ss', aStep eqv ss op = some ss' ∧ Post eqv (step hash eqv s op) fun s' => ∃ ps', Regs hash eqv s' ss' ps' := by
  cases op with
  | make xs =>
    refine .inr ⟨_, rfl, ?_⟩
    exact (r.view.makeSet cons xs).bind fun x hx => Post.ok (r.new (New.one hx))
  | copy i =>
    unfold SetS.step aStep
    dsimp only
    cases h : s.regs[i]? with
    | none => rw [r.absent h]; exact .inl ⟨rfl, rfl⟩
    | some t =>
      obtain ⟨p, h1, h2⟩ := r.get h
      rw [h1]
      exact .inr ⟨_, rfl, (r.view.copy cons h2).bind fun x hx => Post.ok (r.new (New.one hx))⟩
  | add i x =>
    unfold SetS.step aStep
    dsimp only
    cases h : s.regs[i]? with
    | none => rw [r.absent h]; exact .inl ⟨rfl, rfl⟩
    | some t =>
      obtain ⟨p, h1, h2⟩ := r.get h
      rw [h1]
      exact .inr ⟨_, rfl, (r.view.add cons h2 x).bind fun x hx => Post.ok (r.upd h hx)⟩
  | remove i x =>
    unfold SetS.step aStep
    dsimp only
    cases h : s.regs[i]? with
    | none => rw [r.absent h]; exact .inl ⟨rfl, rfl⟩
    | some t =>
      obtain ⟨p, h1, h2⟩ := r.get h
      rw [h1]
      exact .inr ⟨_, rfl, (r.view.remove cons h2 x).bind fun x hx => Post.ok (r.upd h hx)⟩
  | clear i =>
    unfold SetS.step aStep
    dsimp only
    cases h : s.regs[i]? with
    | none => rw [r.absent h]; exact .inl ⟨rfl, rfl⟩
    | some t =>
      obtain ⟨p, h1, h2⟩ := r.get h
      rw [h1]
      exact .inr ⟨_, rfl, (r.view.clear cons h2).bind fun x hx => Post.ok (r.upd h hx)⟩
  | union is =>
    unfold SetS.step aStep
    dsimp only
    rcases r.args is with ⟨h3, h4⟩ | ⟨ts, qs, h3, h4, h5⟩
    · rw [h3, h4]; exact .inl ⟨rfl, rfl⟩
    · rw [h3, h4]
      exact .inr ⟨_, rfl, (r.view.union cons h5).bind fun x hx => Post.ok (r.new hx)⟩
  | intersect is =>
    unfold SetS.step aStep
    dsimp only
    rcases r.args is with ⟨h3, h4⟩ | ⟨ts, qs, h3, h4, h5⟩
    · rw [h3, h4]; exact .inl ⟨rfl, rfl⟩
    · rw [h3, h4]
      exact .inr ⟨_, rfl, (r.view.intersect cons h5).bind fun x hx => Post.ok (r.new hx)⟩
  | subtract i is =>
    unfold SetS.step aStep gets
    dsimp only
    cases h : s.regs[i]? with
    | none => rw [r.absent h]; exact .inl ⟨rfl, rfl⟩
    | some t =>
      obtain ⟨p, h1, h2⟩ := r.get h
      rw [h1]
      dsimp only
      rcases r.args is with ⟨h3, h4⟩ | ⟨ts, qs, h3, h4, h5⟩
      · rw [h3, h4]; exact .inl ⟨rfl, rfl⟩
      · rw [h3, h4]
        exact .inr ⟨_, rfl, (r.view.subtract cons (.cons h2 h5)).bind fun x hx => Post.ok (r.new hx)⟩
  | symDiff i is =>
    unfold SetS.step aStep gets
    dsimp only
    cases h : s.regs[i]? with
    | none => rw [r.absent h]; exact .inl ⟨rfl, rfl⟩
    | some t =>
      obtain ⟨p, h1, h2⟩ := r.get h
      rw [h1]
      dsimp only
      rcases r.args is with ⟨h3, h4⟩ | ⟨ts, qs, h3, h4, h5⟩
      · rw [h3, h4]; exact .inl ⟨rfl, rfl⟩
      · rw [h3, h4]
        exact .inr ⟨_, rfl, (r.view.symDiff cons (.cons h2 h5)).bind fun x hx => Post.ok (r.new hx)⟩

theorem Regs.run (cons : Consistent hash eqv) : ∀ (ops : List (Op K)) {s : St K} {ss ps : List (K → Bool)}, Regs hash eqv s ss ps →
    Post eqv (run hash eqv s ops) fun s' => ∃ ps', Regs hash eqv s' (aRun eqv ss ops) ps'
  | [], _, _, _, r => Post.ok ⟨_, r⟩
  | op :: ops, s, ss, ps, r => by
    unfold SetS.run aRun
    rcases r.step cons op with ⟨h1, h2⟩ | ⟨ss', h2, h1⟩
    · rw [h1, h2]
      exact Regs.run cons ops r
    · rw [h2]
      rcases h1 with ⟨hm, h1⟩ | ⟨s', h1, ps', r'⟩
      · rw [h1]; exact .inl ⟨hm, rfl⟩
      · rw [h1]
        exact Regs.run cons ops r'

end

/-! ### property -/

/-- **C62.** Run any program of set operations: making, copying, adding, removing, clearing, union, intersection, difference, symmetric difference, on any sets made so far and with a set
occurring any number of times among the arguments.  Unless there are 4611686018427388039 inequivalent elements, the program ends and the sets are the ones set algebra says: an operation on a
number that names no set is refused and changes nothing, operations that make a set leave the other sets unchanged, and for every set `set-member?` answers membership, `set->list` lists one
element of each class of equivalent elements and no other, `set-count` and `set-empty?` count those, and for any two sets `subset?`, `proper-subset?` and `set=?` decide inclusion, proper
inclusion and equality. -/
theorem C62 {hash : K → Word} {eqv : K → K → Bool} (cons : Consistent hash eqv) (h : Heap K Unit) (ops : List (Op K)) :
    (run hash eqv ⟨⟨h, [], []⟩, []⟩ ops = .ub ∧ Many eqv) ∨
    ∃ s, run hash eqv ⟨⟨h, [], []⟩, []⟩ ops = .ok s ∧ s.regs.length = (aRun eqv [] ops).length ∧
      ∀ (i t : Nat) (p : K → Bool), s.regs[i]? = some t → (aRun eqv [] ops)[i]? = some p →
        (∀ x, setMember hash eqv s.w t x = .ok (p x)) ∧
        (∃ xs, setToList s.w t = .ok xs ∧ setCount s.w t = .ok xs.length ∧ setEmpty s.w t = .ok (xs.length == 0) ∧
          xs.Pairwise (fun a b => eqv a b = false) ∧ ∀ k, p k = true ↔ ∃ x ∈ xs, eqv x k = true) ∧
        ∀ (j u : Nat) (q : K → Bool), s.regs[j]? = some u → (aRun eqv [] ops)[j]? = some q →
          (∃ b, subset hash eqv s.w t u = .ok b ∧ (b = true ↔ ∀ k, p k = true → q k = true)) ∧
          (∃ b, properSubset hash eqv s.w t u = .ok b ∧ (b = true ↔ (∀ k, p k = true → q k = true) ∧ ¬ ∀ k, q k = true → p k = true)) ∧
          ∃ b, setEq hash eqv s.w t u = .ok b ∧ (b = true ↔ ∀ k, p k = q k) := by
  have start : Regs hash eqv ⟨⟨h, [], []⟩, []⟩ [] [] := ⟨⟨[], SRel.empty h, rfl⟩, List.nodup_nil, .nil⟩
  rcases start.run cons ops with ⟨hm, h⟩ | ⟨s, h, ps, r⟩
  · exact .inl ⟨h, hm⟩
  · refine .inr ⟨s, h, r.sets.length_eq, fun i t p hi hp => ?_⟩
    obtain ⟨p', h1, h2⟩ := r.get hi
    rw [hp] at h1
    cases h1
    have v := r.view
    refine ⟨fun x => v.member cons h2 x, ?_, fun j u q hj hq => ?_⟩
    · obtain ⟨xs, e1, e2, e3⟩ := v.toList cons h2
      refine ⟨xs, e1, ?_, ?_, e3.1, e3.2⟩
      · rw [setCount, if_pos (v.isSet h2), e2]
      · rw [setEmpty, if_pos (v.isSet h2), e2]; rfl
    · obtain ⟨q', h3, h4⟩ := r.get hj
      rw [hq] at h3
      cases h3
      obtain ⟨b, e1, e2⟩ := v.subset cons h2 h4
      obtain ⟨c, f1, f2⟩ := v.subset cons h4 h2
      have hs : (isSet s.w t && isSet s.w u) = true := by rw [v.isSet h2, v.isSet h4]; rfl
      refine ⟨⟨b, e1, e2⟩, ⟨b && !c, ?_, ?_⟩, b && c, ?_, ?_⟩
      · rw [properSubset, if_pos hs, e1, f1]
        cases b <;> rfl
      · rw [Bool.and_eq_true, e2, ← f2]
        cases c <;> simp
      · rw [setEq, if_pos hs, e1, f1]
        cases b <;> rfl
      · rw [Bool.and_eq_true, e2, f2]
        constructor
        · rintro ⟨g1, g2⟩ k
          rw [Bool.eq_iff_iff]
          exact ⟨g1 k, g2 k⟩
        · intro g
          exact ⟨fun k hk => by rw [← g]; exact hk, fun k hk => by rw [g]; exact hk⟩

/-- numbers, hashed modulo 3 -/
def exHash (n : Nat) : Word := BitVec.ofNat 64 (n % 3)

theorem exConsistent : Consistent exHash (fun a b : Nat => a == b) where
  refl a := by simp
  symm a b h := by simp_all
  trans a b c h1 h2 := by simp_all
  hash a b h := by simp_all

/-- the hypotheses are met, and the theorem says what it should of a program with aliases, an element added twice, a refused operation, and every set operation -/
example : (aRun (fun a b : Nat => a == b) []
    [.make [1, 2, 3, 4], .make [3, 4, 5], .union [0, 1, 0], .intersect [0, 1], .subtract 0 [1], .symDiff 0 [1, 3], .add 0 9, .add 0 9, .remove 1 3, .add 17 0, .copy 0, .clear 0]
    ).map (fun p => (List.range 11).filter p) =
    [[], [4, 5], [1, 2, 3, 4, 5], [3, 4], [1, 2], [1, 2, 3, 4, 5], [1, 2, 3, 4, 9]] := by decide

/-- so with finitely many classes of elements (here: two) no program can fail -/
example (h : Heap Bool Unit) (ops : List (Op Bool)) : ∃ s, run (fun b => if b then 1 else 0) (fun a b : Bool => a == b) ⟨⟨h, [], []⟩, []⟩ ops = .ok s := by
  have cons : Consistent (fun b => if b then (1 : Word) else 0) (fun a b : Bool => a == b) :=
    ⟨by simp, by simp_all, by simp_all, by simp_all⟩
  rcases C62 cons h ops with ⟨-, ks, h1, h2⟩ | ⟨s, h, -⟩
  · exfalso
    match ks, h1, h2 with
    | [], h1, _ => simp at h1
    | [_], h1, _ => simp at h1
    | [_, _], h1, _ => simp at h1
    | a :: b :: c :: _, _, h2 =>
      cases a <;> cases b <;> cases c <;> simp at h2
  · exact ⟨s, h⟩

end Minim.SetS
