import Verif.LoadInv

set_option autoImplicit false

/-!
# C90: modules are loaded once, after the modules they import
-/

namespace Minim.Load

open Minim.Path Minim.Str

variable {K F X V W : Type} [DecidableEq K]

/-- nothing is loaded yet -/
def St.start (w : W) : St K F X V W := ⟨[], [], [], w⟩

theorem start_inv (L : Lang K F X V W) (files : Path → Option (List (Item K F))) (w : W) : Inv L files (St.start w) :=
  ⟨fun q => by simp [St.start, get], .nil, fun q m h => by simp [St.start, get] at h, by simp [St.start]⟩

/-- Specification: histories of loads, each of them successful. -/
inductive Loads (L : Lang K F X V W) (files : Path → Option (List (Item K F))) (cwd : Path) : List Path → St K F X V W → St K F X V W → Prop where
  | nil (st : St K F X V W) : Loads L files cwd [] st st
  | cons {n : Nat} {name : Path} {names : List Path} {st st1 st2 : St K F X V W} : load L files cwd n name st = .ok st1 → Loads L files cwd names st1 st2 → Loads L files cwd (name :: names) st st2

theorem Loads.inv {L : Lang K F X V W} {files : Path → Option (List (Item K F))} {cwd : Path} (hc : Abs cwd) {names : List Path} {st st' : St K F X V W} (h : Loads L files cwd names st st') (hi : Inv L files st) :
    Inv L files st' ∧ Ext (fun q => ∃ p ∈ names, Reach files (resolve cwd p) q) st st' ∧ ∀ p ∈ names, (get (resolve cwd p) st'.table).isSome := by
  induction h with
  | nil => exact ⟨hi, .refl _, by simp⟩
  | cons h _ ih =>
    obtain ⟨i1, e1, m1⟩ := load_ok hc _ _ _ _ hi h
    obtain ⟨i2, e2, m2⟩ := ih i1
    refine ⟨i2, (e1.mono fun q hq => ⟨_, by simp, hq⟩).trans (e2.mono ?_), fun p hp => ?_⟩
    · rintro q ⟨p, hp, hr⟩; exact ⟨p, by simp [hp], hr⟩
    · rcases List.mem_cons.1 hp with rfl | hp
      · exact e2.mem m1
      · exact m2 p hp

/-- C90: whatever is loaded in whatever order, exactly the modules that are loaded or imported, directly or not, are evaluated, each of them once and after all those it imports. -/
theorem C90_once (L : Lang K F X V W) (files : Path → Option (List (Item K F))) {cwd : Path} (hc : cwd.head? = some 47#8) {names : List Path} {w : W} {st : St K F X V W} (h : Loads L files cwd names (St.start w) st) :
    (st.log.map Run.path).Nodup ∧ (∀ q, q ∈ st.log.map Run.path ↔ ∃ p ∈ names, Reach files (resolve cwd p) q) ∧
    ∀ (l1 l2 : List (Run K F X V)) (r : Run K F X V), st.log = l1 ++ r :: l2 → ∀ q, Imports files r.path q → q ∈ l1.map Run.path := by
  obtain ⟨i, e, m⟩ := h.inv hc (start_inv L files w)
  refine ⟨i.order.nodup, fun q => ⟨fun hq => ?_, fun ⟨p, hp, hr⟩ => ?_⟩, fun l1 l2 r hl q hq => ?_⟩
  · obtain ⟨new, h1, h2⟩ := e.log
    rw [h1] at hq
    simp only [St.start, List.nil_append] at hq
    obtain ⟨r, hr, rfl⟩ := List.mem_map.1 hq
    exact h2 r hr
  · exact i.order.reach ((i.keys _).1 (m p hp)) hr
  · exact i.order.split (a := l1.map Run.path) (b := l2.map Run.path) (by rw [hl]; simp) q hq

/-- C90: each module is expanded and evaluated with its own forms; a variable it does not define itself has the value the first of the imported modules exports under that name, or else that of the base
environment; the same holds for macros. -/
theorem C90_imports (L : Lang K F X V W) (files : Path → Option (List (Item K F))) {cwd : Path} (hc : cwd.head? = some 47#8) {names : List Path} {w : W} {st : St K F X V W} (h : Loads L files cwd names (St.start w) st) :
    ∀ r ∈ st.log, (∃ w0 fs se w1 w2, L.expand r.path (formsOf files r.path) r.xforms (L.stx r.env) w0 = .ok (fs, r.macros, se, w1) ∧ L.eval fs r.env w1 = .ok (r.final, w2)) ∧
      (∀ k, r.env k = (firstOf (fun q => (get q st.table).map Exports.vals) k (impsOf files r.path)).or (L.base k)) ∧
      ∀ k, get k r.xforms = firstOf (fun q => (get q st.table).map Exports.xforms) k (impsOf files r.path) := fun r hr =>
  have := ((h.inv hc (start_inv L files w)).1.runs r hr)
  ⟨by obtain ⟨w0, fs, se, w1, w2, h1, h2, _⟩ := this.ran; exact ⟨w0, fs, se, w1, w2, this.forms ▸ h1, h2⟩, this.env, this.xforms⟩

/-- C90: a module exports exactly the names its `export` forms list, by themselves or with another module: macros if there is one of the name, or else the value the variable has when the module is evaluated. -/
theorem C90_exports (L : Lang K F X V W) (files : Path → Option (List (Item K F))) {cwd : Path} (hc : cwd.head? = some 47#8) {names : List Path} {w : W} {st : St K F X V W} (h : Loads L files cwd names (St.start w) st) :
    ∀ r ∈ st.log, ∃ m, get r.path st.table = some m ∧ (∀ k v, (k, v) ∈ m.vals ↔ Listed files r.path st k ∧ get k r.macros = none ∧ r.final k = some v) ∧
      (∀ k x, (k, x) ∈ m.xforms ↔ Listed files r.path st k ∧ get k r.macros = some x) ∧ ∀ k, Listed files r.path st k → k ∈ m.xforms.map Prod.fst ∨ k ∈ m.vals.map Prod.fst := by
  intro r hr
  obtain ⟨m, h1, h2, h3, h4⟩ := ((h.inv hc (start_inv L files w)).1.runs r hr).exps
  refine ⟨m, h1, h2, h3, fun k hk => ?_⟩
  cases hx : get k r.macros with
  | some x => exact .inl (List.mem_map.2 ⟨(k, x), (h3 k x).2 ⟨hk, hx⟩, rfl⟩)
  | none =>
    rcases h4 k hk with h5 | h5
    · rw [hx] at h5; cases h5
    · obtain ⟨v, hv⟩ := Option.isSome_iff_exists.1 h5
      exact .inr (List.mem_map.2 ⟨(k, v), (h2 k v).2 ⟨hk, hx, hv⟩, rfl⟩)

/-- C90: if the imports do not form a cycle, loading ends, provided that expansion and evaluation of each module do. -/
theorem C90_ends (L : Lang K F X V W) (files : Path → Option (List (Item K F))) (hL : (∀ p fs xf env w, L.expand p fs xf env w ≠ .oof) ∧ ∀ fs env w, L.eval fs env w ≠ .oof) {cwd : Path} (hc : cwd.head? = some 47#8)
    (name : Path) (ha : Acc (fun q p => Imports files p q) (resolve cwd name)) : ∃ n0, ∀ n, n0 ≤ n → ∀ st : St K F X V W, load L files cwd n name st ≠ .oof := by
  obtain ⟨n0, h⟩ := load_term (cwd := cwd) hL ha (abs_resolve hc name)
  refine ⟨n0 + 1, fun n hn st => ?_⟩
  obtain ⟨n, rfl⟩ : ∃ j, n = j + 1 := ⟨n - 1, by omega⟩
  have := h (n + 1) (by omega) st
  rw [load, resolve_abs (abs_resolve hc name)] at this
  rw [load]
  exact this

/-- C90: a cyclic program is never loaded: if a module that imports itself, directly or not, is asked for, loading does not succeed. -/
theorem C90_acyclic (L : Lang K F X V W) (files : Path → Option (List (Item K F))) {cwd : Path} (hc : cwd.head? = some 47#8) {names : List Path} {w : W} {st : St K F X V W} (h : Loads L files cwd names (St.start w) st) :
    ∀ p ∈ names, ∀ q r, Reach files (resolve cwd p) q → Imports files q r → ¬ Reach files r q := by
  intro p hp q r hq hr
  obtain ⟨i, _, m⟩ := h.inv hc (start_inv L files w)
  exact acc_cycle (i.order.acc q (i.order.reach ((i.keys _).1 (m p hp)) hq)) r hr

/-- C91: the prompt that `enter!` starts for a module that was evaluated sees the imported variables and those of the base environment, and macros are expanded with the variables of the module. -/
theorem C91_partial (L : Lang K F X V W) (files : Path → Option (List (Item K F))) {cwd : Path} (hc : cwd.head? = some 47#8) {names : List Path} {w : W} {st : St K F X V W} (h : Loads L files cwd names (St.start w) st)
    (hx : ∀ p fs xf env w r, L.expand p fs xf env w = .ok r → r.2.2.1 = env) {gpv : K} (hs : ∀ env k, k ≠ gpv → L.stx env k = env k) {name : Path} (hn : name ∈ names) :
    ∃ r ∈ st.log, r.path = resolve cwd name ∧ ∃ env stxEnv, enter cwd st name = .ok (env, stxEnv) ∧ (∀ k, k ≠ gpv → env k = r.env k) ∧ stxEnv = r.final := by
  obtain ⟨i, _, m⟩ := h.inv hc (start_inv L files w)
  obtain ⟨r, hr, hp⟩ := List.mem_map.1 ((i.keys _).1 (m name hn))
  obtain ⟨w0, fs, se, w1, w2, h1, h2, h3⟩ := (i.runs r hr).ran
  refine ⟨r, hr, hp, se, r.final, by rw [enter, ← hp, h3], fun k hk => ?_, rfl⟩
  have := hx _ _ _ _ _ _ h1
  simp only at this
  rw [this, hs _ _ hk]

/-! ### examples -/

/-- Example language: a form defines a variable as the sum of others (0 if unknown) plus 1 plus the number of evaluations so far; no macros. -/
def exLang : Lang Nat (Nat × List Nat) Unit Nat Nat where
  base := fun k => if k = 0 then some 10 else none
  stx := fun env k => if k = 99 then some 0 else env k
  expand := fun _ fs xf env w => .ok (fs, xf, env, w)
  eval := fun fs env w => .ok (fs.foldl (fun env f => fun k => if k = f.1 then some ((f.2.map fun x => (env x).getD 0).foldl (· + ·) (1 + 100 * w)) else env k) env, w + 1)

/-- "/d/" ++ name -/
def dn (c : Byte) : Path := [47#8, 100#8, 47#8, c]

/-- Example: `/d/a` imports `b` and `c`, `/d/b` and `/d/c` import `d`; `d` exports 1, `b` exports 1 and 2, `c` all of `d` and 3; `e` and `f` import each other. -/
def exFiles : Path → Option (List (Item Nat (Nat × List Nat))) := fun p =>
  if p = dn 97#8 then some [.imp [some [98#8], some [99#8]], .form (5, [1, 2, 3])]
  else if p = dn 98#8 then some [.exp [.sym 1, .sym 2], .imp [some [100#8]], .form (1, [1]), .form (2, [1])]
  else if p = dn 99#8 then some [.imp [some [100#8]], .exp [.all [100#8], .sym 3], .form (3, [0, 1])]
  else if p = dn 100#8 then some [.exp [.sym 1], .form (1, [0])]
  else if p = dn 101#8 then some [.imp [some [102#8]]]
  else if p = dn 102#8 then some [.imp [some [101#8]]]
  else none

/-- the example: `d` is evaluated once, before `b`, `c` and `a`; of the two exports of 1 that of `b` is used by `a` -/
example : ∃ st, load exLang exFiles [47#8, 100#8] 10 [97#8] (St.start 0) = .ok st ∧ st.log.map Run.path = [dn 100#8, dn 98#8, dn 99#8, dn 97#8] ∧ st.w = 4 ∧
    (st.log.map fun r => (r.env 1, r.final 1)) = [(none, some 11), (some 11, some 112), (some 11, some 11), (some 112, some 112)] ∧ ([47#8, 100#8] : Path).head? = some 47#8 :=
  ⟨_, rfl, by decide +kernel, by decide +kernel, by decide +kernel, rfl⟩

/-- the example has no cycle below `/d/a`, and the language terminates -/
example : Acc (fun q p => Imports exFiles p q) (resolve [47#8, 100#8] [97#8]) ∧ (∀ p fs xf env w, exLang.expand p fs xf env w ≠ .oof) ∧ ∀ fs env w, exLang.eval fs env w ≠ .oof := by
  refine ⟨?_, by simp [exLang], by simp [exLang]⟩
  have step : ∀ (p : Path) (ps : List Path), impsOf exFiles p = ps → (∀ q ∈ ps, Acc (fun q p => Imports exFiles p q) q) → Acc (fun q p => Imports exFiles p q) p := by
    intro p ps h h'
    refine .intro _ fun q hq => h' q ?_
    rw [Imports, h] at hq
    exact hq
  have hd := step (dn 100#8) [] (by decide +kernel) (by simp)
  have hb := step (dn 98#8) [dn 100#8] (by decide +kernel) (by simpa using hd)
  have hc := step (dn 99#8) [dn 100#8] (by decide +kernel) (by simpa using hd)
  exact step (dn 97#8) [dn 98#8, dn 99#8] (by decide +kernel) (by simpa using ⟨hb, hc⟩)

/-! ### where the code disagrees -/

/-- Cyclic imports are not reported: `e` and `f` import each other, and loading `e` never ends. -/
theorem C90_negated_cycle : ∀ n, load exLang exFiles [47#8, 100#8] n (dn 101#8) (St.start 0) = .oof := by
  have hs1 : sibling (dn 101#8) [102#8] = some (dn 102#8) := by decide +kernel
  have hs2 : sibling (dn 102#8) [101#8] = some (dn 101#8) := by decide +kernel
  have hf1 : exFiles (dn 101#8) = some [.imp [some [102#8]]] := rfl
  have hf2 : exFiles (dn 102#8) = some [.imp [some [101#8]]] := rfl
  have hr1 : resolve [47#8, 100#8] (dn 101#8) = dn 101#8 := rfl
  have hr2 : resolve [47#8, 100#8] (dn 102#8) = dn 102#8 := rfl
  have : ∀ n, load exLang exFiles [47#8, 100#8] n (dn 101#8) (St.start 0) = .oof ∧ load exLang exFiles [47#8, 100#8] n (dn 102#8) (St.start 0) = .oof := by
    intro n
    induction n with
    | zero => exact ⟨rfl, rfl⟩
    | succ n ih =>
      constructor
      · rw [load, hr1, if_neg (by simp [St.start, get]), loadNew, hf1]
        simp only [itemLoop, impLoop, hs1, ih.2]
        rfl
      · rw [load, hr2, if_neg (by simp [St.start, get]), loadNew, hf2]
        simp only [itemLoop, impLoop, hs2, ih.1]
        rfl
  exact fun n => (this n).1

/-- Example: `/d/a` imports `b` and `./b`, which is the same file; it is there under both names. -/
def exTwice : Path → Option (List (Item Nat (Nat × List Nat))) := fun p =>
  if p = dn 97#8 then some [.imp [some [98#8], some [46#8, 47#8, 98#8]]]
  else if p = dn 98#8 ∨ p = [47#8, 100#8, 47#8, 46#8, 47#8, 98#8] then some [.exp [.sym 1], .form (1, [])]
  else none

/-- C90 fails for files that are imported under different names: `b` and `./b` are one file, but it is evaluated twice and its variable has two values. -/
theorem C90_negated_names : ∃ st, load exLang exTwice [47#8, 100#8] 10 [97#8] (St.start 0) = .ok st ∧ st.w = 3 ∧
    (st.log.map fun r => (r.path, r.final 1)) = [([47#8, 100#8, 47#8, 98#8], some 1), ([47#8, 100#8, 47#8, 46#8, 47#8, 98#8], some 101), ([47#8, 100#8, 47#8, 97#8], some 1)] :=
  ⟨_, rfl, by decide +kernel, by decide +kernel⟩

/-- Example: `/d/a` imports `/d/b` by its absolute name. -/
def exAbs : Path → Option (List (Item Nat (Nat × List Nat))) := fun p =>
  if p = dn 97#8 then some [.imp [some (dn 98#8)]]
  else if p = dn 98#8 then some []
  else none

/-- C90 fails for absolute names in an `import` form: the name is put after the directory of the importing file all the same, and a file that can be loaded by that name is not found. -/
theorem C90_negated_absolute : (∃ st, load exLang exAbs [47#8, 100#8] 10 (dn 98#8) (St.start 0) = .ok st) ∧ (∀ n, load exLang exAbs [47#8, 100#8] (n + 2) [97#8] (St.start 0) = .err) ∧
    sibling (dn 97#8) (dn 98#8) = some [47#8, 100#8, 47#8, 47#8, 100#8, 47#8, 98#8] := by
  refine ⟨⟨_, rfl⟩, fun n => ?_, by decide +kernel⟩
  have h1 : sibling (dn 97#8) (dn 98#8) = some [47#8, 100#8, 47#8, 47#8, 100#8, 47#8, 98#8] := by decide +kernel
  have h2 : exAbs (dn 97#8) = some [.imp [some (dn 98#8)]] := rfl
  have h3 : resolve [47#8, 100#8] [97#8] = dn 97#8 := rfl
  have h4 : exAbs [47#8, 100#8, 47#8, 47#8, 100#8, 47#8, 98#8] = none := rfl
  have h5 : resolve [47#8, 100#8] [47#8, 100#8, 47#8, 47#8, 100#8, 47#8, 98#8] = [47#8, 100#8, 47#8, 47#8, 100#8, 47#8, 98#8] := rfl
  rw [load, h3, if_neg (by simp [St.start, get]), loadNew, h2]
  simp only [itemLoop, impLoop, h1]
  rw [load, h5, if_neg (by simp [St.start, get]), loadNew, h4]
  rfl

/-- C91 fails: the environments of expansion and evaluation are exchanged, so the variables a module defines are unknown at its prompt. -/
theorem C91_negated : ∃ st, Loads exLang exFiles [47#8, 100#8] [[97#8]] (St.start 0) st ∧ (∀ p fs xf env w r, exLang.expand p fs xf env w = .ok r → r.2.2.1 = env) ∧ (∀ env k, k ≠ 99 → exLang.stx env k = env k) ∧
    ∃ r ∈ st.log, r.path = dn 97#8 ∧ (r.final 5).isSome ∧ ∃ env stxEnv, enter [47#8, 100#8] st [97#8] = .ok (env, stxEnv) ∧ env 5 = none := by
  refine ⟨_, .cons (n := 10) rfl (.nil _), ?_, fun env k hk => by simp [exLang, hk], _, List.mem_append_right _ (List.mem_singleton.2 rfl), by decide +kernel, by decide +kernel, _, _, rfl, by decide +kernel⟩
  intro p fs xf env w r h
  simp only [exLang, Res.ok.injEq] at h
  rw [← h]

end Minim.Load
