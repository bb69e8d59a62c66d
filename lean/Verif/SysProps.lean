import Verif.Sys
import Mathlib.Data.List.Induction

set_option autoImplicit false

/-!
# Directories, `load` and the command line (C106, C107)
-/

namespace Minim.Sys

open Minim.Path

/-! ### specification -/

/-- a path from the root -/
def Abs (p : Name) : Prop := p.head? = some 47#8

instance (p : Name) : Decidable (Abs p) := inferInstanceAs (Decidable (_ = _))

section

variable {V W : Type}

/-- what is assumed about the operating system: a path from the root means the same from everywhere; `getcwd` gives one that leads to the directory; `realpath` gives one whose last name is that of the file in the directory
before it; a relative name appended to a path from the root is found in its directory -/
structure OS.Laws (O : OS V W) : Prop where
  cwd_abs : ∀ d, Abs (O.getcwd d)
  cwd : ∀ d d', O.chdir d (O.getcwd d') = some d'
  chdir_abs : ∀ {p}, Abs p → ∀ d d', O.chdir d p = O.chdir d' p
  fopen_abs : ∀ {p}, Abs p → ∀ d d', O.fopen d p = O.fopen d' p
  real_abs : ∀ {p}, Abs p → ∀ d d', O.realpath d p = O.realpath d' p
  real : ∀ {d p f}, O.fopen d p = some f → ∃ a n d', O.realpath d p = some (a ++ 47#8 :: n) ∧ 47#8 ∉ n ∧ Abs (a ++ [47#8]) ∧ O.chdir d (a ++ [47#8]) = some d' ∧ (n ≠ [] → O.fopen d' n = some f)
  under : ∀ {d p d' n}, Abs p → O.chdir d p = some d' → n ≠ [] → ¬ Abs n → O.fopen d (join p [n]) = O.fopen d' n

/-- the directory of the file `p` as seen from `d`: what `realpath` gives without the last name, and its path -/
def Home (O : OS V W) (d : O.Dir) (p : Name) (f : List (Prog V W)) (d' : O.Dir) (t : Name) : Prop :=
  ∃ a n, O.realpath d p = some (a ++ 47#8 :: n) ∧ 47#8 ∉ n ∧ t = a ++ [47#8] ∧ O.chdir d t = some d' ∧ (n ≠ [] → O.fopen d' n = some f)

/-- the string `(current-directory)` gives leads to the current directory from everywhere -/
def Named {O : OS V W} (s : St O) : Prop := Abs s.text ∧ ∀ d, O.chdir d s.text = some s.cwd

/-- sets the current directory only to paths from the root and does not overwrite the string it is given -/
inductive Tame : Prog V W → Prop where
  | ret (v : V) : Tame (.ret v)
  | fail : Tame .fail
  | pwd {k : Name → Prog V W} (h : ∀ t, Abs t → Tame (k t)) : Tame (.pwd k)
  | cd {p : Name} {k : Prog V W} (hp : Abs p) (h : Tame k) : Tame (.cd p k)
  | load {p : Name} {k : V → Prog V W} (h : ∀ v, Tame (k v)) : Tame (.load p k)
  | act {f : W → W} {k : W → Prog V W} (h : ∀ w, Tame (k w)) : Tame (.act f k)

/-! ### lemmas -/

theorem lastSep_spec (a n : Name) (hn : 47#8 ∉ n) : ∀ i, i ≤ n.length → lastSep (a ++ 47#8 :: n) (a.length + 1 + i) = some a.length := by
  intro i
  induction i with
  | zero =>
    intro _
    rw [Nat.add_zero, lastSep]
    have : (a ++ 47#8 :: n).getD a.length 0#8 = 47#8 := by simp [List.getD]
    rw [this]
    simp
  | succ i ih =>
    intro hi
    rw [show a.length + 1 + (i + 1) = (a.length + 1 + i) + 1 by omega, lastSep]
    have : (a ++ 47#8 :: n).getD (a.length + 1 + i) 0#8 = n[i]'(by omega) := by
      rw [List.getD, List.getElem?_append_right (by omega), show a.length + 1 + i - a.length = i + 1 by omega, List.getElem?_cons_succ, List.getElem?_eq_getElem (by omega)]
      rfl
    rw [this, if_pos (fun (h : n[i]'(by omega) = 47#8) => hn (h ▸ List.getElem_mem _))]
    exact ih (by omega)

theorem lastSep_none (p : Name) (h : 47#8 ∉ p) : ∀ i, i ≤ p.length → lastSep p i = none := by
  intro i
  induction i with
  | zero => intro _; rfl
  | succ i ih =>
    intro hi
    rw [lastSep, if_pos, ih (by omega)]
    rw [List.getD, List.getElem?_eq_getElem (by omega)]
    exact fun hh => h (hh ▸ List.getElem_mem _)

theorem getFileDir_some (a n : Name) (hn : 47#8 ∉ n) : getFileDir (a ++ 47#8 :: n) = some (a ++ [47#8]) := by
  have := lastSep_spec a n hn n.length (Nat.le_refl _)
  rw [getFileDir, show (a ++ 47#8 :: n).length = a.length + 1 + n.length by simp; omega, this]
  simp [List.take_append]

/-- **C106** `get_file_dir` gives the text up to the last separator, and fails exactly where there is none. -/
theorem C106_file_dir (p : Name) : (∀ t, getFileDir p = some t ↔ ∃ a n, p = a ++ 47#8 :: n ∧ 47#8 ∉ n ∧ t = a ++ [47#8]) ∧ (getFileDir p = none ↔ 47#8 ∉ p) := by
  have hs : 47#8 ∈ p → ∃ a n, p = a ++ 47#8 :: n ∧ 47#8 ∉ n := by
    intro h
    obtain ⟨x, y, e, hx⟩ := List.eq_append_cons_of_mem (List.mem_reverse.2 h)
    refine ⟨y.reverse, x.reverse, ?_, by simpa using hx⟩
    have := congrArg List.reverse e
    simpa using this
  have hz : 47#8 ∉ p → getFileDir p = none := by
    intro h
    rw [getFileDir, lastSep_none p h _ (Nat.le_refl _)]
  refine ⟨fun t => ⟨fun h => ?_, ?_⟩, ⟨fun h hm => ?_, hz⟩⟩
  · by_cases hm : 47#8 ∈ p
    · obtain ⟨a, n, rfl, hn⟩ := hs hm
      rw [getFileDir_some a n hn] at h
      exact ⟨a, n, rfl, hn, (Option.some.inj h).symm⟩
    · rw [hz hm] at h; cases h
  · rintro ⟨a, n, rfl, hn, rfl⟩
    exact getFileDir_some a n hn
  · obtain ⟨a, n, rfl, hn⟩ := hs hm
    rw [getFileDir_some a n hn] at h; cases h

variable {O : OS V W} {void : V}

theorem setDir_getcwd (L : O.Laws) (s : St O) (d : O.Dir) : setDir O (O.getcwd d) s = .ok ⟨d, O.getcwd d, s.w⟩ := by
  rw [setDir, L.cwd]

/-! ### C106 -/

/-- **C106** What `load` does: the forms of the file are evaluated, the first one in the directory of the file, and then the directory is the one before, whatever the forms did to it. -/
theorem C106_load (L : O.Laws) {s : St O} {p : Name} {f : List (Prog V W)} (hf : O.fopen s.cwd p = some f) (k : Nat) :
    ∃ d t, Home O s.cwd p f d t ∧ Abs t ∧ loadFile O void (k + 1) p s = (runForms O (loadFile O void k) f void ⟨d, t, s.w⟩ >>= fun r => .ok (r.1, ⟨s.cwd, O.getcwd s.cwd, r.2.w⟩)) := by
  obtain ⟨a, n, d', h1, h2, h3, h4, h5⟩ := L.real hf
  refine ⟨d', a ++ [47#8], ⟨a, n, h1, h2, rfl, h4, h5⟩, h3, ?_⟩
  rw [loadFile, hf]
  dsimp only
  rw [h1]
  dsimp only
  rw [getFileDir_some a n h2]
  dsimp only
  rw [setDir, h4]
  dsimp only
  rw [Res.ok_bind]
  congr 1
  funext r
  rw [setDir_getcwd L]
  rfl

/-- **C106** A file that cannot be opened is an error. -/
theorem C106_missing {s : St O} {p : Name} (hf : O.fopen s.cwd p = none) (k : Nat) : loadFile O void (k + 1) p s = .err := by
  rw [loadFile, hf]

/-- **C106** After `load` the current directory is the one before. -/
theorem C106_restores (L : O.Laws) {k : Nat} {s s' : St O} {p : Name} {v : V} (h : loadFile O void k p s = .ok (v, s')) : s'.cwd = s.cwd ∧ s'.text = O.getcwd s.cwd := by
  cases k with
  | zero => simp [loadFile] at h
  | succ k =>
    cases hf : O.fopen s.cwd p with
    | none => rw [C106_missing hf] at h; cases h
    | some f =>
      obtain ⟨d, t, _, _, he⟩ := C106_load (void := void) L hf k
      rw [he] at h
      cases hr : runForms O (loadFile O void k) f void ⟨d, t, s.w⟩ with
      | ok r => rw [hr] at h; cases h; exact ⟨rfl, rfl⟩
      | err => rw [hr] at h; cases h
      | ub => rw [hr] at h; cases h
      | oof => rw [hr] at h; cases h

/-- **C106** Loading a file by its path from the root gives the same value and has the same effects in every directory: the names used in the file are relative to the file. -/
theorem C106_independent (L : O.Laws) {p : Name} (hp : Abs p) (k : Nat) (s s' : St O) (hw : s.w = s'.w) :
    (loadFile O void k p s >>= fun r => Res.ok (r.1, r.2.w)) = (loadFile O void k p s' >>= fun r => Res.ok (r.1, r.2.w)) := by
  cases k with
  | zero => rfl
  | succ k =>
    have ho := L.fopen_abs hp s.cwd s'.cwd
    cases hf : O.fopen s.cwd p with
    | none => rw [C106_missing hf, C106_missing (ho ▸ hf)]
    | some f =>
      obtain ⟨a, n, d, h1, h2, h3, h4, h5⟩ := L.real hf
      have hg (x : St O) (hx : O.fopen x.cwd p = some f) (hr : O.realpath x.cwd p = some (a ++ 47#8 :: n)) (hc : O.chdir x.cwd (a ++ [47#8]) = some d) :
          (loadFile O void (k + 1) p x >>= fun r => Res.ok (r.1, r.2.w)) = (runForms O (loadFile O void k) f void ⟨d, a ++ [47#8], x.w⟩ >>= fun r => .ok (r.1, r.2.w)) := by
        rw [loadFile, hx]
        dsimp only
        rw [hr]
        dsimp only
        rw [getFileDir_some a n h2]
        dsimp only
        rw [setDir, hc]
        dsimp only
        rw [Res.ok_bind]
        cases runForms O (loadFile O void k) f void ⟨d, a ++ [47#8], x.w⟩ with
        | ok r => rw [Res.ok_bind, setDir_getcwd L]; rfl
        | err => rfl
        | ub => rfl
        | oof => rfl
      rw [hg s hf h1 h4, hg s' (ho ▸ hf) (by rw [← h1]; exact L.real_abs hp _ _) (by rw [← h4]; exact L.chdir_abs h3 _ _), hw]

theorem Named.init (L : O.Laws) (d : O.Dir) (w : W) : Named (initSt O d w) := ⟨L.cwd_abs d, fun x => L.cwd x d⟩

theorem setDir_named (L : O.Laws) {p : Name} (hp : Abs p) {s s' : St O} (h : setDir O p s = .ok s') : Named s' := by
  rw [setDir] at h
  cases hc : O.chdir s.cwd p with
  | none => rw [hc] at h; cases h
  | some d =>
    rw [hc] at h
    cases h
    exact ⟨hp, fun x => (L.chdir_abs hp x s.cwd).trans hc⟩

theorem runProg_named (L : O.Laws) {ld : Name → St O → Res (V × St O)} (hld : ∀ p s r, Named s → ld p s = .ok r → Named r.2) {g : Prog V W} (hg : Tame g) :
    ∀ {s : St O} {r : V × St O}, Named s → runProg O ld g s = .ok r → Named r.2 := by
  induction hg with
  | ret v => intro s r hs h; cases h; exact hs
  | fail => intro s r hs h; cases h
  | pwd hk ih => intro s r hs h; exact ih _ hs.1 hs h
  | cd hp hk ih =>
    intro s r hs h
    obtain ⟨s1, h1, h2⟩ := Res.bind_eq_ok.1 h
    exact ih (setDir_named L hp h1) h2
  | load hk ih =>
    intro s r hs h
    obtain ⟨r1, h1, h2⟩ := Res.bind_eq_ok.1 h
    exact ih _ (hld _ _ _ hs h1) h2
  | @act f k hk ih => intro s r hs h; exact ih _ (s := { s with w := f s.w }) ⟨hs.1, hs.2⟩ h

theorem loadFile_named (L : O.Laws) {k : Nat} {p : Name} {s : St O} {r : V × St O} (h : loadFile O void k p s = .ok r) : Named r.2 := by
  obtain ⟨h1, h2⟩ := C106_restores L (v := r.1) (s' := r.2) h
  exact ⟨h2 ▸ L.cwd_abs _, fun d => by rw [h1, h2]; exact L.cwd d s.cwd⟩

/-- **C106** (partial: programs that set the directory to paths from the root only) The string `(current-directory)` gives leads to the current directory from everywhere, at every moment. -/
theorem C106_text_partial (L : O.Laws) {k : Nat} {g : Prog V W} (hg : Tame g) {s : St O} (hs : Named s) {r : V × St O} (h : runProg O (loadFile O void k) g s = .ok r) : Named r.2 :=
  runProg_named L (fun _ _ _ _ h => loadFile_named L h) hg hs h

/-- **C106** (partial: where the string leads to the directory) Setting the directory back to the string that was asked for before gives the directory before. -/
theorem C106_back_partial {s s1 : St O} (hs : Named s) : setDir O s.text s1 = .ok ⟨s.cwd, s.text, s1.w⟩ := by
  rw [setDir, hs.2]

/-- **C106** (partial: where the string leads to the directory) A relative name given to `import`, `load`, `enter!` of the library means the file of this name in the current directory. -/
theorem C106_module_partial (L : O.Laws) {s : St O} (hs : Named s) {n : Name} (hn : n ≠ []) : O.fopen s.cwd (modPath s.text n) = O.fopen s.cwd n := by
  by_cases ha : Abs n
  · rw [modPath, if_pos (show n.head? = some 47#8 from ha)]
  · rw [modPath, if_neg (show ¬ n.head? = some 47#8 from ha)]
    exact L.under hs.1 (hs.2 s.cwd) hn ha

end

/-! ### a file system: a tree without links -/

/-- the names in a path -/
def comps : Name → Name → List Name
  | cur, [] => if cur = [] then [] else [cur]
  | cur, b :: t => if b = 47#8 then (if cur = [] then comps [] t else cur :: comps [] t) else comps (cur ++ [b]) t

/-- a name that a file or a directory can have -/
def Valid (n : Name) : Prop := n ≠ [] ∧ 47#8 ∉ n ∧ n ≠ [46#8] ∧ n ≠ [46#8, 46#8]

/-- directories and files by their names from the root -/
structure Tree (V W : Type) where
  isDir : List Name → Bool
  file : List Name → Option (List (Prog V W))
  root : isDir [] = true
  up : ∀ {x n}, (isDir (x ++ [n]) = true ∨ (file (x ++ [n])).isSome = true) → isDir x = true ∧ Valid n

section

variable {V W : Type} (T : Tree V W)

/-- there is a directory or a file -/
def Tree.has (x : List Name) : Bool := T.isDir x || (T.file x).isSome

/-- following names from `x` -/
def Tree.walk : List Name → List Name → Option (List Name)
  | x, [] => some x
  | x, c :: cs =>
    if T.isDir x then
      if c = [46#8] then Tree.walk x cs
      else if c = [46#8, 46#8] then Tree.walk x.dropLast cs
      else if T.has (x ++ [c]) then Tree.walk (x ++ [c]) cs else none
    else none

/-- the directory or file a path leads to -/
def Tree.look (x : List Name) (p : Name) : Option (List Name) :=
  if p = [] then none
  else match T.walk (if Abs p then [] else x) (comps [] p) with
    | none => none
    | some y => if p.getLast? = some 47#8 ∧ T.isDir y = false then none else some y

/-- the path from the root -/
def pathText : List Name → Name
  | [] => [47#8]
  | x => x.flatMap fun n => 47#8 :: n

/-- the operating system on the tree -/
def Tree.os : OS V W where
  Dir := { x : List Name // T.isDir x = true }
  chdir d p := match T.look d.1 p with
    | none => none
    | some y => if h : T.isDir y = true then some ⟨y, h⟩ else none
  getcwd d := pathText d.1
  fopen d p := match T.look d.1 p with
    | none => none
    | some y => if T.isDir y then some [] else T.file y
  realpath d p := (T.look d.1 p).map pathText

variable {T}

theorem comps_append (a t : Name) : ∀ cur, comps cur (a ++ 47#8 :: t) = comps cur a ++ comps [] t := by
  induction a with
  | nil => intro cur; simp only [List.nil_append, comps, if_true]; split <;> simp
  | cons b a ih =>
    intro cur
    rw [List.cons_append, comps, comps]
    split
    · split
      · exact ih []
      · rw [ih []]; rfl
    · exact ih _

theorem comps_name {n : Name} (h : 47#8 ∉ n) : ∀ cur, comps cur n = if cur ++ n = [] then [] else [cur ++ n] := by
  induction n with
  | nil => intro cur; simp [comps]
  | cons b n ih =>
    intro cur
    rw [comps, if_neg (fun (e : b = 47#8) => h (e ▸ List.mem_cons_self)), ih (fun hm => h (List.mem_cons_of_mem _ hm))]
    simp

theorem comps_flat : ∀ (x : List Name), (∀ n ∈ x, Valid n) → comps [] (x.flatMap fun n => 47#8 :: n) = x := by
  intro x
  induction x using List.reverseRecOn with
  | nil => intro _; rfl
  | append_singleton x n ih =>
    intro h
    rw [List.flatMap_append, List.flatMap_singleton, comps_append, ih (fun m hm => h m (by simp [hm]))]
    have hn := h n (by simp)
    rw [comps_name hn.2.1, if_neg (by simpa using hn.1)]
    rfl

theorem comps_path {x : List Name} (h : ∀ n ∈ x, Valid n) : comps [] (pathText x) = x := by
  cases x with
  | nil => rfl
  | cons a x => exact comps_flat _ h

theorem pathText_abs (x : List Name) : Abs (pathText x) := by
  cases x <;> simp [pathText, Abs]

theorem has_valid : ∀ (x : List Name), T.has x = true → ∀ n ∈ x, Valid n := by
  intro x
  induction x using List.reverseRecOn with
  | nil => intro _ n hn; cases hn
  | append_singleton x m ih =>
    intro h n hn
    have := T.up (x := x) (n := m) (by simpa [Tree.has] using h)
    rcases List.mem_append.1 hn with h1 | h1
    · exact ih (by rw [Tree.has, this.1]; rfl) n h1
    · rw [List.mem_singleton.1 h1]; exact this.2

theorem walk_append : ∀ (cs ds : List Name) (x : List Name), T.walk x (cs ++ ds) = (T.walk x cs).bind fun y => T.walk y ds := by
  intro cs ds
  induction cs with
  | nil => intro x; rfl
  | cons c cs ih =>
    intro x
    rw [List.cons_append, Tree.walk, Tree.walk]
    split
    · split
      · exact ih _
      · split
        · exact ih _
        · split
          · exact ih _
          · rfl
    · rfl

theorem walk_one {x : List Name} {n : Name} (hx : T.isDir x = true) (hv : Valid n) (h : T.has (x ++ [n]) = true) : T.walk x [n] = some (x ++ [n]) := by
  rw [Tree.walk, if_pos hx, if_neg hv.2.2.1, if_neg hv.2.2.2, if_pos h]
  rfl

theorem walk_names : ∀ (x : List Name), T.has x = true → T.walk [] x = some x := by
  intro x
  induction x using List.reverseRecOn with
  | nil => intro _; rfl
  | append_singleton x n ih =>
    intro h
    have := T.up (x := x) (n := n) (by simpa [Tree.has] using h)
    rw [walk_append, ih (by rw [Tree.has, this.1]; rfl)]
    exact walk_one this.1 this.2 h

theorem dir_dropLast {x : List Name} (h : T.isDir x = true) : T.isDir x.dropLast = true := by
  cases x using List.reverseRecOn with
  | nil => exact h
  | append_singleton x n => rw [List.dropLast_concat]; exact (T.up (.inl h)).1

theorem walk_has : ∀ (cs : List Name) (x y : List Name), T.has x = true → T.walk x cs = some y → T.has y = true := by
  intro cs
  induction cs with
  | nil => intro x y h e; cases e; exact h
  | cons c cs ih =>
    intro x y h e
    rw [Tree.walk] at e
    split at e
    · rename_i hx
      split at e
      · exact ih _ _ h e
      · split at e
        · exact ih _ _ (by rw [Tree.has, dir_dropLast hx]; rfl) e
        · split at e
          · rename_i hc
            exact ih _ _ hc e
          · cases e
    · cases e

theorem look_path {x : List Name} (h : T.has x = true) (hd : T.isDir x = true) (d : List Name) : T.look d (pathText x) = some x := by
  have hne : pathText x ≠ [] := by intro e; have := pathText_abs x; rw [e] at this; simp [Abs] at this
  rw [Tree.look, if_neg hne, if_pos (pathText_abs x), comps_path (has_valid x h), walk_names x h]
  simp [hd]

theorem look_abs {p : Name} (hp : Abs p) (d d' : List Name) : T.look d p = T.look d' p := by
  rw [Tree.look, Tree.look, if_pos hp, if_pos hp]

theorem look_has {d : List Name} (hd : T.isDir d = true) {p : Name} {y : List Name} (h : T.look d p = some y) : T.has y = true := by
  rw [Tree.look] at h
  split at h
  · cases h
  · split at h
    · cases h
    · rename_i z hz
      split at h
      · cases h
      · cases h
        refine walk_has _ _ _ ?_ hz
        split
        · rw [Tree.has, T.root]; rfl
        · rw [Tree.has, hd]; rfl

theorem look_slash {x : List Name} (hd : T.isDir x = true) (d : List Name) : T.look d (x.flatMap (fun n => 47#8 :: n) ++ [47#8]) = some x := by
  have hh : T.has x = true := by rw [Tree.has, hd]; rfl
  have ha : Abs (x.flatMap (fun n => 47#8 :: n) ++ [47#8]) := by cases x <;> simp [Abs]
  rw [Tree.look, if_neg (by simp), if_pos ha, comps_append, comps_flat x (has_valid x hh)]
  simp [comps, walk_names x hh, hd]

theorem look_name {x : List Name} {n : Name} (hd : T.isDir x = true) (hv : Valid n) (h : T.has (x ++ [n]) = true) : T.look x n = some (x ++ [n]) := by
  have hna : ¬ Abs n := by
    intro ha
    rw [Abs] at ha
    exact hv.2.1 (List.mem_of_mem_head? ha)
  have hl : n.getLast? ≠ some 47#8 := fun e => hv.2.1 (List.mem_of_getLast? e)
  rw [Tree.look, if_neg hv.1, if_neg hna, comps_name hv.2.1, if_neg (by simpa using hv.1), List.nil_append, walk_one hd hv h]
  simp [hl]

theorem join_comps {p n : Name} (hn : n ≠ []) : comps [] (join p [n]) = comps [] p ++ comps [] n := by
  obtain ⟨c, m, rfl⟩ := List.exists_cons_of_ne_nil hn
  rw [join]
  split
  · rename_i hl
    obtain ⟨p', rfl⟩ : ∃ p', p = p' ++ [47#8] := by
      rw [List.getLast?_eq_some_iff] at hl
      exact hl
    rw [join, List.append_assoc, List.singleton_append, comps_append, comps_append]
    simp [comps]
  · rw [join, comps_append]

theorem join_last {p n : Name} (hn : n ≠ []) : (join p [n]).getLast? = n.getLast? := by
  obtain ⟨c, m, rfl⟩ := List.exists_cons_of_ne_nil hn
  have : ∀ q : Name, (q ++ c :: m).getLast? = (c :: m).getLast? := by intro q; rw [List.getLast?_append, List.getLast?_cons]; rfl
  rw [join]
  split
  · rw [join]; exact this p
  · rw [join, show p ++ 47#8 :: c :: m = (p ++ [47#8]) ++ c :: m by simp]; exact this _

theorem join_abs {p n : Name} (hp : Abs p) (hn : n ≠ []) : Abs (join p [n]) := by
  obtain ⟨c, m, rfl⟩ := List.exists_cons_of_ne_nil hn
  cases p with
  | nil => simp [Abs] at hp
  | cons a p =>
    rw [join]
    split <;> (rw [join]; simpa [Abs] using hp)

theorem look_join {p n : Name} {x d : List Name} (hp : Abs p) (h : T.look d p = some x) (hn : n ≠ []) (hna : ¬ Abs n) : T.look d (join p [n]) = T.look x n := by
  have hpe : p ≠ [] := by rintro rfl; simp [Abs] at hp
  have hj := join_abs hp hn
  have hje : join p [n] ≠ [] := by intro e; rw [e] at hj; simp [Abs] at hj
  rw [Tree.look, if_neg hpe, if_pos hp] at h
  have hw : T.walk [] (comps [] p) = some x := by
    split at h
    · cases h
    · rename_i z hz
      split at h
      · cases h
      · cases h; exact hz
  rw [Tree.look, Tree.look, if_neg hje, if_neg hn, if_pos hj, if_neg hna, join_comps hn, walk_append, hw, join_last hn]
  rfl

/-- trees satisfy the laws -/
theorem Tree.laws (T : Tree V W) : T.os.Laws where
  cwd_abs d := pathText_abs d.1
  cwd d d' := by
    have hh : T.has d'.1 = true := by rw [Tree.has, d'.2]; rfl
    simp only [Tree.os]
    rw [look_path hh d'.2]
    exact dif_pos d'.2
  chdir_abs hp d d' := by simp only [Tree.os]; rw [look_abs hp d.1 d'.1]
  fopen_abs hp d d' := by simp only [Tree.os]; rw [look_abs hp d.1 d'.1]
  real_abs hp d d' := by simp only [Tree.os]; rw [look_abs hp d.1 d'.1]
  real {d p f} h := by
    simp only [Tree.os] at h ⊢
    cases hl : T.look d.1 p with
    | none => rw [hl] at h; cases h
    | some x =>
      rw [hl] at h
      have hh := look_has d.2 hl
      cases x using List.reverseRecOn with
      | nil =>
        refine ⟨[], [], ⟨[], T.root⟩, rfl, by simp, rfl, ?_, by simp⟩
        have := look_slash T.root d.1
        simp only [List.flatMap_nil] at this
        rw [this]
        simp [T.root]
      | append_singleton x n =>
        have hu := T.up (x := x) (n := n) (by simpa [Tree.has] using hh)
        refine ⟨x.flatMap fun n => 47#8 :: n, n, ⟨x, hu.1⟩, ?_, hu.2.2.1, ?_, ?_, fun _ => ?_⟩
        · have : pathText (x ++ [n]) = (x ++ [n]).flatMap fun n => 47#8 :: n := by cases x <;> rfl
          simp [this]
        · cases x <;> simp [Abs]
        · rw [look_slash hu.1]
          simp [hu.1]
        · rw [look_name hu.1 hu.2 hh]
          exact h
  under {d p d' n} hp h hn hna := by
    simp only [Tree.os] at h ⊢
    cases hl : T.look d.1 p with
    | none => rw [hl] at h; cases h
    | some x =>
      rw [hl] at h
      dsimp only at h
      split at h
      · cases h
        rw [look_join hp hl hn hna]
      · cases h

/-- a tree from lists -/
def Tree.of (dirs : List (List Name)) (files : List (List Name × List (Prog V W))) (hr : [] ∈ dirs)
    (h : ∀ y ∈ dirs ++ files.map (·.1), y = [] ∨ (y.dropLast ∈ dirs ∧ Valid (y.getLastD []))) : Tree V W where
  isDir x := decide (x ∈ dirs)
  file x := files.lookup x
  root := by simpa using hr
  up {x n} hx := by
    have hm : x ++ [n] ∈ dirs ++ files.map (·.1) := by
      rcases hx with hx | hx
      · exact List.mem_append_left _ (by simpa using hx)
      · refine List.mem_append_right _ ?_
        obtain ⟨v, hv⟩ := Option.isSome_iff_exists.1 hx
        clear hx h
        induction files with
        | nil => simp at hv
        | cons a fs ih =>
          rw [List.lookup] at hv
          split at hv
          · rename_i he
            simp [eq_of_beq he]
          · exact List.mem_cons_of_mem _ (ih hv)
    rcases h _ hm with h1 | h1
    · simp at h1
    · simpa using h1

end

instance (n : Name) : Decidable (Valid n) := by unfold Valid; infer_instance

/-- Specification: one form and then another. -/
def Prog.andThen {V W : Type} (k : V → Prog V W) : Prog V W → Prog V W
  | .ret v => k v
  | .fail => .fail
  | .pwd f => .pwd fun t => (f t).andThen k
  | .cd p q => .cd p (q.andThen k)
  | .load p f => .load p fun v => (f v).andThen k
  | .poke i c q => .poke i c (q.andThen k)
  | .act g f => .act g fun w => (f w).andThen k

/-- Specification: several forms as one, `v` for none. -/
def Prog.seq {V W : Type} : V → List (Prog V W) → Prog V W
  | v, [] => .ret v
  | _, p :: ps => p.andThen fun v => Prog.seq v ps

theorem runProg_andThen {V W : Type} {O : OS V W} (ld : Name → St O → Res (V × St O)) (k : V → Prog V W) : ∀ (p : Prog V W) (s : St O),
    runProg O ld (p.andThen k) s = runProg O ld p s >>= fun r => runProg O ld (k r.1) r.2 := by
  intro p
  induction p with
  | ret v => intro s; rfl
  | fail => intro s; rfl
  | pwd f ih => intro s; exact ih _ s
  | cd p q ih =>
    intro s
    simp only [Prog.andThen, runProg]
    cases setDir O p s <;> simp [ih]
  | load p f ih =>
    intro s
    simp only [Prog.andThen, runProg]
    cases ld p s <;> simp [ih]
  | poke i c q ih =>
    intro s
    simp only [Prog.andThen, runProg]
    split
    · exact ih _
    · rfl
  | act g f ih => intro s; exact ih _ _

/-- **C106** The forms of a file run one after the other like the parts of one form: what a form does to the current directory holds for the next ones. -/
theorem C106_sequence {V W : Type} {O : OS V W} (ld : Name → St O → Res (V × St O)) : ∀ (fs : List (Prog V W)) (v : V) (s : St O), runForms O ld fs v s = runProg O ld (Prog.seq v fs) s := by
  intro fs
  induction fs with
  | nil => intro v s; rfl
  | cons p ps ih =>
    intro v s
    rw [Prog.seq, runProg_andThen, runForms]
    congr 1
    funext r
    exact ih _ _

/-! ### examples, and what does not hold -/

/-- note a number -/
def note (n : Nat) (v : Nat) : Prog Nat (List Nat) := .act (· ++ [n]) fun _ => .ret v

/-- /a, /a/a, /b; /a/m notes 1 and goes to /b, /a/a/m notes 2, /b/main loads m, ../a/m, ../a/a/m -/
def demo : Tree Nat (List Nat) :=
  Tree.of [[], [asc "a"], [asc "a", asc "a"], [asc "b"]]
    [([asc "a", asc "m"], [note 1 1, .cd (asc "/b") (.ret 7)]), ([asc "a", asc "a", asc "m"], [note 2 2]),
     ([asc "b", asc "m"], [note 3 3]),
     ([asc "b", asc "main"], [.load (asc "m") .ret, .load (asc "../a/m") .ret, .load (asc "../a/a/m") fun v => .act (· ++ [v]) fun _ => .pwd fun t => .ret t.length])]
    (by decide) (by decide)

/-- the root -/
def demoRoot : demo.os.Dir := ⟨[], rfl⟩

/-- the state at the root -/
def demo0 : St demo.os := initSt demo.os demoRoot []

/-- the state after `(current-directory "a")` -/
def demo1 : St demo.os := ⟨⟨[asc "a"], rfl⟩, asc "a", []⟩

/-- the hypotheses of the theorems can be met: files are loaded from their own directories, and the directory is the one before -/
example : demo.os.Laws := demo.laws

example : (match loadFile demo.os 0 3 (asc "b/main") demo0 with
    | .ok (v, s) => decide (v = 2 ∧ s.cwd.1 = [] ∧ s.text = asc "/" ∧ s.w = [3, 1, 2, 2])
    | _ => false) = true := by decide +kernel

example : (match loadFile demo.os 0 3 (asc "/b/main") demo1 with
    | .ok (v, s) => decide (v = 2 ∧ s.cwd.1 = [asc "a"] ∧ s.text = asc "/a" ∧ s.w = [3, 1, 2, 2])
    | _ => false) = true := by decide +kernel

example : Named demo0 := Named.init demo.laws _ _

example : Tame (.pwd fun t => .cd (asc "/a") (.cd t (.ret 0)) : Prog Nat (List Nat)) := .pwd fun _ ht => .cd (by decide) (.cd ht (.ret 0))

/-- **C106** (negation) After the directory is set to a relative path, `(current-directory)` gives this path: it means another directory now. -/
theorem C106_negated_text : ∃ s1 s2 : St demo.os, setDir demo.os (asc "a") demo0 = .ok s1 ∧ setDir demo.os s1.text s1 = .ok s2 ∧ s1.cwd ≠ s2.cwd ∧ s1.text = s2.text :=
  ⟨demo1, ⟨⟨[asc "a", asc "a"], rfl⟩, asc "a", []⟩, rfl, rfl, fun h => absurd (congrArg Subtype.val h) (by decide), rfl⟩

/-- **C106** (negation) … or none. -/
theorem C106_negated_none : ∃ s1 : St demo.os, setDir demo.os (asc "b") demo0 = .ok s1 ∧ setDir demo.os s1.text s1 = .err :=
  ⟨⟨⟨[asc "b"], rfl⟩, asc "b", []⟩, rfl, rfl⟩

/-- **C106** (negation) Then `import` and `load` of the library take a relative name for another file than the one in the current directory. -/
theorem C106_negated_module : ∃ s1 : St demo.os, setDir demo.os (asc "a") demo0 = .ok s1 ∧
    (∃ f g, demo.os.fopen s1.cwd (asc "m") = some f ∧ demo.os.fopen s1.cwd (modPath s1.text (asc "m")) = some g ∧ f.length = 2 ∧ g.length = 1) :=
  ⟨demo1, rfl, [note 1 1, .cd (asc "/b") (.ret 7)], [note 2 2], rfl, rfl, rfl, rfl⟩

/-- **C106** (negation) `load` leaves the directory as it was, but not what `(current-directory)` gives. -/
theorem C106_negated_load : ∃ s2 v, loadFile demo.os 0 2 (asc "a/m") demo1 = .ok (v, s2) ∧ s2.cwd = demo1.cwd ∧ s2.text ≠ demo1.text :=
  ⟨⟨⟨[asc "a"], rfl⟩, asc "/a", [2]⟩, 2, rfl, rfl, by decide⟩

/-- **C106** (negation) A program can overwrite the string of the current directory: `(string-set! (current-directory) 0 #\b)`. -/
theorem C106_negated_shared : runProg demo.os (loadFile demo.os 0 1) (.poke 0 98#8 (.ret 0)) demo1 = .ok (0, ⟨demo1.cwd, asc "b", []⟩) := rfl

/-! ### C107: the command line -/

/-- the settings that can be chosen -/
inductive Flag where
  | inter
  | quiet
  | noLibs
deriving DecidableEq, Repr

/-- how they are written -/
inductive Spells : Flag → Name → Prop where
  | i : Spells .inter (asc "-i")
  | inter : Spells .inter (asc "--interactive")
  | q : Spells .quiet (asc "-q")
  | quiet : Spells .quiet (asc "--quiet")
  | noLibs : Spells .noLibs (asc "--no-libs")

/-- flags, then the rest: from the first argument that does not begin with a dash, or after `--` -/
inductive Parse : List Name → List Flag → List Name → Prop where
  | nil : Parse [] [] []
  | arg {a : Name} {as : List Name} (h : a.head? ≠ some 45#8) : Parse (a :: as) [] (a :: as)
  | stop {as : List Name} : Parse (asc "--" :: as) [] as
  | flag {f : Flag} {a : Name} {as : List Name} {fs : List Flag} {rest : List Name} (h : Spells f a) (t : Parse as fs rest) : Parse (a :: as) (f :: fs) rest

/-- after flags, `a` begins with a dash and is no flag -/
inductive Bad : List Name → Name → Prop where
  | here {a : Name} {as : List Name} (h : a.head? = some 45#8) (hs : a ≠ asc "--") (hf : ∀ f, ¬ Spells f a) : Bad (a :: as) a
  | later {f : Flag} {b a : Name} {as : List Name} (h : Spells f b) (t : Bad as a) : Bad (b :: as) a

/-- what the program should do: only which flags there are matters -/
def planOf (args : List Name) (fs : List Flag) (rest : List Name) : Plan where
  banner := decide (Flag.quiet ∉ fs)
  libs := decide (Flag.noLibs ∉ fs)
  cmd := rest
  start := match rest with
    | [] => .nothing
    | f :: _ => if Flag.inter ∉ fs ∧ Flag.noLibs ∉ fs then .import_ f else .load f
  prompt := decide (args = [] ∨ Flag.inter ∈ fs)

/-- no argument has a NUL inside, and none begins with `-i` or `-q` and goes on -/
def Clean (args : List Name) : Prop := ∀ a ∈ args, 0#8 ∉ a ∧ (∀ t, a = 45#8 :: 105#8 :: t → t = []) ∧ (∀ t, a = 45#8 :: 113#8 :: t → t = [])

theorem cmdLoop_eq (as : List Name) : cmdLoop as = as := by
  rw [cmdLoop, List.foldl_reverse]
  induction as with
  | nil => rfl
  | cons a as ih => rw [List.foldr_cons, ih]

/-- the settings after flags -/
def withFlags (o : Opts) : List Flag → Opts
  | [] => o
  | .inter :: fs => withFlags { o with inter := true } fs
  | .quiet :: fs => withFlags { o with quiet := true } fs
  | .noLibs :: fs => withFlags { o with libs := false } fs

theorem withFlags_eq (fs : List Flag) : ∀ o, withFlags o fs = ⟨o.libs && decide (Flag.noLibs ∉ fs), o.inter || decide (Flag.inter ∈ fs), o.quiet || decide (Flag.quiet ∈ fs)⟩ := by
  induction fs with
  | nil => intro o; simp [withFlags]
  | cons f fs ih => intro o; cases f <;> simp [withFlags, ih]

theorem head_at {a : Name} (h : 0#8 ∉ a) : at_ a 0 = 45#8 ↔ a.head? = some 45#8 := by
  cases a <;> simp [at_]

theorem flags_ok {args : List Name} {fs : List Flag} {rest : List Name} (h : Parse args fs rest) : ∀ o, handleFlags o args = .ok (withFlags o fs, rest) := by
  induction h with
  | nil => intro o; rfl
  | @arg a as h =>
    intro o
    rw [handleFlags, if_pos]
    · rfl
    · cases a <;> simp_all [at_]
  | stop => intro o; rfl
  | flag h t ih => intro o; cases h <;> exact ih _

theorem flags_bad {args : List Name} {a : Name} (h : Bad args a) (hc : Clean args) : ∀ o, handleFlags o args = .error a := by
  induction h with
  | @here a as h hs hf =>
    intro o
    obtain ⟨hz, hi, hq⟩ := hc a List.mem_cons_self
    obtain ⟨t, rfl⟩ : ∃ t, a = 45#8 :: t := by
      cases a with
      | nil => simp at h
      | cons b t => simp at h; exact ⟨t, by rw [h]⟩
    rw [handleFlags, if_neg (by simp [at_])]
    have h1 : 45#8 :: t ≠ asc "--interactive" := fun e => hf .inter (e ▸ .inter)
    have h2 : 45#8 :: t ≠ asc "--no-libs" := fun e => hf .noLibs (e ▸ .noLibs)
    have h3 : 45#8 :: t ≠ asc "--quiet" := fun e => hf .quiet (e ▸ .quiet)
    split
    · rename_i hd
      have he : at_ (45#8 :: t) 2 ≠ 0#8 := by
        intro he
        cases t with
        | nil => simp [at_] at hd
        | cons b t =>
          cases t with
          | nil => simp [at_] at hd; subst hd; exact hs rfl
          | cons c t => simp [at_] at he; subst he; simp at hz
      rw [if_neg he]
    · rename_i hd
      have h4 : at_ (45#8 :: t) 1 ≠ 113#8 := by
        intro he
        cases t with
        | nil => simp [at_] at he
        | cons b t =>
          simp [at_] at he; subst he
          rw [hq t rfl] at hf
          exact hf .quiet .q
      have h5 : at_ (45#8 :: t) 1 ≠ 105#8 := by
        intro he
        cases t with
        | nil => simp [at_] at he
        | cons b t =>
          simp [at_] at he; subst he
          rw [hi t rfl] at hf
          exact hf .inter .i
      rw [if_neg h5, if_neg h4]
  | later h t ih =>
    intro o
    have := ih (fun x hx => hc x (List.mem_cons_of_mem _ hx))
    cases h <;> exact this _

theorem parse_or_bad : ∀ args : List Name, (∃ fs rest, Parse args fs rest) ∨ ∃ a, Bad args a := by
  intro args
  induction args with
  | nil => exact .inl ⟨_, _, .nil⟩
  | cons a as ih =>
    by_cases h : a.head? = some 45#8
    · by_cases hs : a = asc "--"
      · subst hs; exact .inl ⟨_, _, .stop⟩
      · by_cases hf : ∃ f, Spells f a
        · obtain ⟨f, hf⟩ := hf
          rcases ih with ⟨fs, rest, hp⟩ | ⟨b, hb⟩
          · exact .inl ⟨_, _, .flag hf hp⟩
          · exact .inr ⟨b, .later hf hb⟩
        · exact .inr ⟨a, .here h hs (fun f hh => hf ⟨f, hh⟩)⟩
    · exact .inl ⟨_, _, .arg h⟩

/-- **C107** The flags, in whatever order and number, choose the settings; the list of `(command-line)` is the rest, and its first element is the file that is run. -/
theorem C107_plan {args : List Name} {fs : List Flag} {rest : List Name} (h : Parse args fs rest) : main args = .ok (planOf args fs rest) := by
  rw [main, flags_ok h, withFlags_eq]
  dsimp only
  rw [cmdLoop_eq]
  cases args <;> cases rest <;> simp [planOf]

/-- **C107** (partial: no argument that begins with `-i` or `-q` and goes on) The program starts exactly if the arguments are flags followed by others; otherwise it reports the first argument that looks like a flag and is none,
before it does anything. -/
theorem C107_partial {args : List Name} (hc : Clean args) : (∀ p, main args = .ok p ↔ ∃ fs rest, Parse args fs rest ∧ p = planOf args fs rest) ∧ ∀ a, main args = .error a ↔ Bad args a := by
  have hb {a : Name} (h : Bad args a) : main args = .error a := by rw [main, flags_bad h hc]
  rcases parse_or_bad args with ⟨fs, rest, hp⟩ | ⟨b, hbad⟩
  · have hm := C107_plan hp
    refine ⟨fun p => ⟨fun h => ⟨fs, rest, hp, ?_⟩, ?_⟩, fun a => ⟨fun h => ?_, hb⟩⟩
    · rw [hm] at h; cases h; rfl
    · rintro ⟨fs', rest', hp', rfl⟩; exact C107_plan hp'
    · rw [hm] at h; cases h
  · have hm := hb hbad
    refine ⟨fun p => ⟨fun h => ?_, ?_⟩, fun a => ⟨fun h => ?_, hb⟩⟩
    · rw [hm] at h; cases h
    · rintro ⟨fs', rest', hp', rfl⟩; exact C107_plan hp'
    · rw [hm] at h; cases h; exact hbad

/-- **C107** Whatever the arguments are: if the program starts, `(command-line)` is the end of the list of arguments, and all that comes before begins with a dash. -/
theorem C107_command_line {args : List Name} {p : Plan} (h : main args = .ok p) : ∃ pre, args = pre ++ p.cmd ∧ ∀ a ∈ pre, a.head? = some 45#8 := by
  have key : ∀ (args : List Name) (o o' : Opts) (rest : List Name), handleFlags o args = .ok (o', rest) → ∃ pre, args = pre ++ rest ∧ ∀ a ∈ pre, a.head? = some 45#8 := by
    intro args
    induction args with
    | nil => intro o o' rest h; cases h; exact ⟨[], rfl, by simp⟩
    | cons a as ih =>
      intro o o' rest h
      rw [handleFlags] at h
      split at h
      · cases h; exact ⟨[], rfl, by simp⟩
      · rename_i hd
        have ha : a.head? = some 45#8 := by
          cases a with
          | nil => simp [at_] at hd
          | cons b t => simp [at_] at hd; simp [hd]
        have next : ∀ o, handleFlags o as = .ok (o', rest) → ∃ pre, a :: as = pre ++ rest ∧ ∀ a ∈ pre, a.head? = some 45#8 := by
          intro o h
          obtain ⟨pre, h1, h2⟩ := ih _ _ _ h
          exact ⟨a :: pre, by rw [h1]; rfl, by simpa [ha] using h2⟩
        split at h
        · split at h
          · cases h; exact ⟨[a], rfl, by simpa using ha⟩
          · split at h
            · exact next _ h
            · split at h
              · exact next _ h
              · split at h
                · exact next _ h
                · cases h
        · split at h
          · exact next _ h
          · split at h
            · exact next _ h
            · cases h
  rw [main] at h
  split at h
  · cases h
  · rename_i o rest hf
    cases h
    rw [cmdLoop_eq]
    exact key _ _ _ _ hf

example : Parse [asc "-q", asc "f.min", asc "-i"] [.quiet] [asc "f.min", asc "-i"] := .flag .q (.arg (by decide))

example : main [asc "-q", asc "f.min", asc "-i"] = .ok ⟨false, true, [asc "f.min", asc "-i"], .import_ (asc "f.min"), false⟩ := rfl

example : Bad [asc "-q", asc "-x"] (asc "-x") := .later .q (.here (by decide) (by decide) (by intro f h; generalize hx : asc "-x" = x at h; cases h <;> revert hx <;> decide))

example : Clean [asc "-q", asc "f.min"] := by
  intro a ha
  simp only [List.mem_cons, List.not_mem_nil, or_false] at ha
  rcases ha with rfl | rfl
  · exact ⟨by decide, by rintro t ⟨⟩, by rintro t ⟨⟩; rfl⟩
  · exact ⟨by decide, by rintro t ⟨⟩, by rintro t ⟨⟩⟩

/-- **C107** (negation) An argument that only begins like a flag is taken for it: `-input` is `-i`. -/
theorem C107_negated_letter : main [asc "-input", asc "f"] = .ok ⟨true, true, [asc "f"], .load (asc "f"), true⟩ ∧ ∀ f, ¬ Spells f (asc "-input") :=
  ⟨rfl, by intro f h; generalize hx : asc "-input" = x at h; cases h <;> revert hx <;> decide⟩

/-- **C107** (negation) With flags but no file, as in `minim -q`, the program loads the library and ends: there is neither a file to run nor a prompt. -/
theorem C107_negated_prompt : main [asc "-q"] = .ok ⟨false, true, [], .nothing, false⟩ ∧ main [asc "--"] = .ok ⟨true, true, [], .nothing, false⟩ ∧ main [] = .ok ⟨true, true, [], .nothing, true⟩ := ⟨rfl, rfl, rfl⟩

section

variable {V : Type} (isVoid : V → Bool)

/-- what a prompt should write: itself before each form, then a line for every value that is not void -/
def session (es : List (Evaled V)) : List (Out V) := es.flatMap (fun e => .promptText :: e.list.filterMap fun v => if isVoid v then none else some (.line v)) ++ [.promptText]

/-- **C107** The prompt of the library. -/
theorem C107_library_prompt (es : List (Evaled V)) : replL isVoid es = session isVoid es := by
  induction es with
  | nil => rfl
  | cons e es ih =>
    rw [replL, ih, session, session, List.flatMap_cons]
    have : showL isVoid e = e.list.filterMap fun v => if isVoid v then none else some (.line v) := by
      rw [showL]
      induction e.list with
      | nil => rfl
      | cons v vs ih => cases hv : isVoid v <;> simp [hv, ih]
    rw [this]
    simp

/-- **C107** (partial: no void among multiple values) The prompt of the C program. -/
theorem C107_prompt_partial (es : List (Evaled V)) (h : ∀ vs, Evaled.values vs ∈ es → ∀ v ∈ vs, isVoid v = false) : replC isVoid es = session isVoid es := by
  rw [← C107_library_prompt]
  induction es with
  | nil => rfl
  | cons e es ih =>
    rw [replC, replL, ih (fun vs hv => h vs (List.mem_cons_of_mem _ hv))]
    congr 2
    cases e with
    | one v => cases hv : isVoid v <;> simp [showC, showL, Evaled.list, hv]
    | values vs =>
      have := h vs List.mem_cons_self
      rw [showC, showL, Evaled.list, List.filter_eq_self.2]
      intro v hv
      rw [this v hv]; rfl

end

example : ∀ vs, Evaled.values vs ∈ [Evaled.one 0, .values [1, 2]] → ∀ v ∈ vs, (v == 0) = false := by
  intro vs h
  simp at h
  subst h
  decide

/-- **C107** (negation) The prompt of the C program writes a void value among several, the prompt of the library does not. -/
theorem C107_negated_void : replC (· == 0) [.values [0, 1]] = [.promptText, .line 0, .line 1, .promptText] ∧ replL (· == 0) [.values [0, 1]] = [.promptText, .line 1, .promptText] := ⟨rfl, rfl⟩

end Minim.Sys
