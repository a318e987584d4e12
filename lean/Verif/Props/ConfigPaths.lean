import Verif.ConfigPaths
import Verif.Props.Settings
/-
C82: which configuration files are read, and which of them wins.
-/
namespace PyLisp.Props
open PyLisp

/-- Specification: the name of a file or directory -/
def FileName (c : Path) : Prop := c ≠ [] ∧ '/' ∉ c ∧ c ≠ ['.'] ∧ c ≠ ['.', '.']

/-- Specification: a relative path: not starting with a slash -/
def Relative (p : Path) : Prop := ∀ r, p ≠ '/' :: r

/-- Specification: the path does not end in a slash -/
def NoSlashEnd (p : Path) : Prop := ∀ r, p ≠ r ++ ['/']

theorem isAbs_false {p : Path} (h : Relative p) : isAbs p = false := by
  cases p with
  | nil => rfl
  | cons c r =>
    have : c ≠ '/' := fun e => h r (by rw [e])
    simp [isAbs, this]

theorem pathJoin_rel {a b : Path} (ha : a ≠ []) (hs : NoSlashEnd a) (hb : Relative b) :
    pathJoin a b = a ++ '/' :: b := by
  have h2 : a.getLast? ≠ some '/' := by
    intro h
    obtain ⟨r, e⟩ := List.getLast?_eq_some_iff.mp h
    exact hs r e
  simp [pathJoin, isAbs_false hb, ha, h2]

theorem noSlashEnd_append {a b : Path} (hb : b ≠ []) (h : '/' ∉ b) : NoSlashEnd (a ++ b) := by
  intro r e
  have h1 : (a ++ b).getLast? = some '/' := by rw [e]; simp
  rw [List.getLast?_append] at h1
  cases hl : b.getLast? with
  | none => exact hb (List.getLast?_eq_none_iff.mp hl)
  | some c =>
    rw [hl] at h1
    cases h1
    exact h (List.mem_of_getLast? hl)

theorem fileName_relative {c : Path} (h : FileName c) : Relative c := by
  intro r e; exact h.2.1 (by rw [e]; simp)

theorem dropWhile_append_slash (q p : Path) (hq : '/' ∉ q) :
    (q ++ '/' :: p).dropWhile (· != '/') = '/' :: p := by
  induction q with
  | nil => simp
  | cons c q ih =>
    simp only [List.mem_cons, not_or] at hq
    have : (c != '/') = true := by simpa using fun e : c = '/' => hq.1 e.symm
    rw [List.cons_append, List.dropWhile_cons_of_pos (p := fun x => x != '/') this, ih hq.2]

theorem rstrip_noSlash {p : Path} (h : NoSlashEnd p) : rstripSlash p = p := by
  unfold rstripSlash
  cases hr : p.reverse with
  | nil => simpa using hr.symm
  | cons c r =>
    have hc : c ≠ '/' := by
      intro e
      refine h r.reverse ?_
      have := congrArg List.reverse hr
      simpa [e] using this
    rw [List.dropWhile_cons_of_neg (by simpa using hc), ← hr, List.reverse_reverse]

theorem rstrip_slash (p : Path) : rstripSlash (p ++ ['/']) = rstripSlash p := by
  simp [rstripSlash]

/-- the directory of a file -/
theorem dirName_file {dir prog : Path} (h : NoSlashEnd dir) (hd : dir ≠ []) (hp : '/' ∉ prog) :
    dirName (dir ++ '/' :: prog) = dir := by
  have : (dir ++ '/' :: prog).reverse = prog.reverse ++ '/' :: dir.reverse := by simp
  have hr : '/' ∉ prog.reverse := by simpa using hp
  simp only [dirName, this, dropWhile_append_slash _ _ hr]
  have e : (('/' :: dir.reverse).reverse : Path) = dir ++ ['/'] := by simp
  rw [e, rstrip_slash, rstrip_noSlash h, if_neg hd]

/-- joining names to a path -/
theorem pathJoins_names {a : Path} (ha : a ≠ []) (hs : NoSlashEnd a) (ns : List Path) (hn : ∀ n ∈ ns, n ≠ [] ∧ '/' ∉ n)
    (f : Path) (hf : Relative f) :
    pathJoins a (ns ++ [f]) = a ++ (ns.map ('/' :: ·)).flatten ++ '/' :: f := by
  induction ns generalizing a with
  | nil =>
    simp only [pathJoins, List.nil_append, List.foldl_cons, List.foldl_nil, List.map_nil, List.flatten_nil,
      List.append_nil]
    exact pathJoin_rel ha hs hf
  | cons n ns ih =>
    have hn1 := hn n (by simp)
    have hrel : Relative n := fun r e => hn1.2 (by rw [e]; simp)
    have e : pathJoins a ((n :: ns) ++ [f]) = pathJoins (pathJoin a n) (ns ++ [f]) := rfl
    rw [e, pathJoin_rel ha hs hrel]
    have hs' : NoSlashEnd (a ++ '/' :: n) := by
      have : a ++ '/' :: n = (a ++ ['/']) ++ n := by simp
      rw [this]; exact noSlashEnd_append hn1.1 hn1.2
    rw [ih (by simp) hs' (fun m hm => hn m (by simp [hm]))]
    simp

theorem rstrip_slashes (p : Path) (n : Nat) : rstripSlash (p ++ List.replicate n '/') = rstripSlash p := by
  induction n with
  | zero => simp
  | succ n ih => rw [List.replicate_succ', ← List.append_assoc, rstrip_slash, ih]

/-- C82: for a program in a directory `dir` (empty: the root) and a relative file name the files looked for are, in this
order, `/etc/lispd/…`, `<dir>/../etc/lispd/…` and `<home>/.pylisp/lispd/…`, each with symbolic links resolved;
slashes at the end of the home directory do not matter. -/
theorem config_paths (real : Path → Path) (homes : Path → Option Path) (argv0 f dir prog home : Path) (slashes : Nat)
    (hf : Relative f) (hreal : real argv0 = dir ++ '/' :: prog) (habs : dir = [] ∨ ∃ r, dir = '/' :: r)
    (hdir : NoSlashEnd dir) (hprog : '/' ∉ prog) (hhome : homes [] = some (home ++ List.replicate slashes '/'))
    (hend : NoSlashEnd home) :
    configPaths real homes argv0 f =
      [real ("/etc/lispd/".toList ++ f), real (dir ++ "/../etc/lispd/".toList ++ f),
       real (home ++ "/.pylisp/lispd/".toList ++ f)] := by
  have h1 : pathJoins ['/'] ["etc".toList, "lispd".toList, f] = "/etc/lispd/".toList ++ f := by
    have e : pathJoins ['/'] ["etc".toList, "lispd".toList, f] = pathJoins "/etc".toList (["lispd".toList] ++ [f]) := by
      simp [pathJoins, pathJoin, isAbs]
    have hns : NoSlashEnd "/etc".toList :=
      noSlashEnd_append (a := "/".toList) (b := "etc".toList) (by decide) (by decide)
    rw [e, pathJoins_names (a := "/etc".toList) (by decide) hns ["lispd".toList] (by decide) f hf]
    rfl
  have h2 : pathJoins (pathJoins (dirName (dir ++ '/' :: prog)) ["..".toList, "etc".toList]) ["lispd".toList, f] =
      dir ++ "/../etc/lispd/".toList ++ f := by
    rcases habs with rfl | ⟨r, rfl⟩
    · have hd : dirName ([] ++ '/' :: prog) = ['/'] := by
        have : ([] ++ '/' :: prog : Path).reverse = prog.reverse ++ '/' :: [] := by simp
        have hr : '/' ∉ prog.reverse := by simpa using hprog
        simp only [dirName, this]
        rw [show (prog.reverse ++ ['/']).dropWhile (· != '/') = ['/'] from dropWhile_append_slash _ [] hr]
        rfl
      rw [hd]
      have e : pathJoins (pathJoins ['/'] ["..".toList, "etc".toList]) ["lispd".toList, f] =
          pathJoins "/..".toList (["etc".toList, "lispd".toList] ++ [f]) := by
        simp [pathJoins, pathJoin, isAbs]
      have hns : NoSlashEnd "/..".toList :=
        noSlashEnd_append (a := "/".toList) (b := "..".toList) (by decide) (by decide)
      rw [e, pathJoins_names (a := "/..".toList) (by decide) hns ["etc".toList, "lispd".toList] (by decide) f hf]
      rfl
    · rw [dirName_file hdir (by simp) hprog]
      have e : pathJoins (pathJoins ('/' :: r) ["..".toList, "etc".toList]) ["lispd".toList, f] =
          pathJoins ('/' :: r) (["..".toList, "etc".toList, "lispd".toList] ++ [f]) := rfl
      rw [e, pathJoins_names (by simp) hdir _ (by decide) f hf]
      simp
  have h3 : pathJoins ['~'] [".pylisp".toList, "lispd".toList, f] = '~' :: "/.pylisp/lispd/".toList ++ f := by
    have e : pathJoins ['~'] [".pylisp".toList, "lispd".toList, f] =
        pathJoins ['~'] ([".pylisp".toList, "lispd".toList] ++ [f]) := rfl
    have hns : NoSlashEnd ['~'] := noSlashEnd_append (a := []) (b := ['~']) (by decide) (by decide)
    rw [e, pathJoins_names (a := ['~']) (by simp) hns [".pylisp".toList, "lispd".toList] (by decide) f hf]
    simp
  simp only [configPaths, hreal, h1, h2, h3, List.map_cons, List.map_nil, Function.comp]
  have e1 : expandUser homes ("/etc/lispd/".toList ++ f) = "/etc/lispd/".toList ++ f := rfl
  have e2 : expandUser homes (dir ++ "/../etc/lispd/".toList ++ f) = dir ++ "/../etc/lispd/".toList ++ f := by
    rcases habs with rfl | ⟨r, rfl⟩ <;> rfl
  have e3 : expandUser homes ('~' :: "/.pylisp/lispd/".toList ++ f) = home ++ "/.pylisp/lispd/".toList ++ f := by
    simp only [expandUser, List.cons_append]
    rw [show ("/.pylisp/lispd/".toList ++ f).takeWhile (· != '/') = [] by rfl, hhome]
    rw [show ("/.pylisp/lispd/".toList ++ f).dropWhile (· != '/') = "/.pylisp/lispd/".toList ++ f by rfl]
    simp [rstrip_slashes, rstrip_noSlash hend]
  rw [e1, e2, e3]

/-! ### A file system without symbolic links -/

theorem components_plain (cur c : Path) (h : '/' ∉ c) : components cur c = [cur ++ c] := by
  induction c generalizing cur with
  | nil => simp [components]
  | cons x c ih =>
    simp only [List.mem_cons, not_or] at h
    have : x ≠ '/' := fun e => h.1 e.symm
    rw [components, if_neg this, ih _ h.2]; simp

theorem components_append (cur p q : Path) :
    components cur (p ++ '/' :: q) = components cur p ++ components [] q := by
  induction p generalizing cur with
  | nil => simp [components]
  | cons x p ih =>
    rw [List.cons_append, components, components]
    split
    · simp [ih]
    · exact ih _

theorem components_absPath (cs : List Path) (hc : ∀ c ∈ cs, '/' ∉ c) (hne : cs ≠ []) (q : Path) :
    components [] (absPath cs ++ '/' :: q) = [] :: cs ++ components [] q := by
  simp only [absPath, if_neg hne]
  clear hne
  rw [components_append]
  congr 1
  have : ∀ cur : Path, components cur (cs.map ('/' :: ·)).flatten = cur :: cs := by
    induction cs with
    | nil => intro cur; simp [components]
    | cons c cs ih =>
      intro cur
      rw [List.map_cons, List.flatten_cons, List.cons_append, components, if_pos rfl]
      have h1 := hc c (by simp)
      have gen : ∀ (pre : Path), components pre (c ++ (cs.map ('/' :: ·)).flatten) = (pre ++ c) :: cs := by
        intro pre
        have ih' := ih (fun d hd => hc d (by simp [hd]))
        clear ih
        induction c generalizing pre with
        | nil => simpa using ih' pre
        | cons x c ihc =>
          simp only [List.mem_cons, not_or] at h1
          rw [List.cons_append, components, if_neg (fun e => h1.1 e.symm)]
          rw [ihc (by intro d hd; simp only [List.mem_cons] at hd; rcases hd with rfl | hd
                      · exact h1.2
                      · exact hc d (by simp [hd])) h1.2]
          simp
      rw [gen []]; rfl
  exact this []

theorem walk_name {path : List Path} {c : Path} (h : FileName c) : walk path c = path ++ [c] := by
  simp [walk, h.1, h.2.2.1, h.2.2.2]

theorem foldl_walk_names (path cs : List Path) (h : ∀ c ∈ cs, FileName c) : cs.foldl walk path = path ++ cs := by
  induction cs generalizing path with
  | nil => simp
  | cons c cs ih =>
    rw [List.foldl_cons, walk_name (h c (by simp)), ih _ (fun d hd => h d (by simp [hd]))]; simp

theorem absPath_snoc (cs : List Path) (c : Path) (hne : cs ≠ []) : absPath (cs ++ [c]) = absPath cs ++ '/' :: c := by
  unfold absPath
  rw [if_neg (by simp), if_neg hne]
  simp

theorem absPath_abs (cs : List Path) : ∃ r, absPath cs = '/' :: r := by
  cases cs with
  | nil => exact ⟨[], rfl⟩
  | cons c cs => exact ⟨c ++ (cs.map ('/' :: ·)).flatten, rfl⟩

theorem absPath_noSlashEnd (cs : List Path) (hne : cs ≠ []) (h : ∀ c ∈ cs, FileName c) : NoSlashEnd (absPath cs) := by
  obtain ⟨init, c, rfl⟩ : ∃ init c, cs = init ++ [c] := ⟨cs.dropLast, cs.getLast hne, (List.dropLast_concat_getLast hne).symm⟩
  have hc := h c (by simp)
  have : absPath (init ++ [c]) = (init.map ('/' :: ·)).flatten ++ ['/'] ++ c := by simp [absPath]
  rw [this]
  exact noSlashEnd_append hc.1 hc.2.1

/-- a file below a directory -/
theorem plainReal_below (cwd cs ds : List Path) (f : Path) (hne : cs ≠ []) (hcs : ∀ c ∈ cs, FileName c)
    (hds : ∀ c ∈ ds, FileName c ∨ c = ['.', '.']) (hf : FileName f) :
    plainReal cwd (absPath cs ++ (ds.map ('/' :: ·)).flatten ++ '/' :: f) = absPath (ds.foldl walk cs ++ [f]) := by
  have hsl : ∀ c ∈ ds, '/' ∉ c := by
    intro c hc
    rcases hds c hc with h | rfl
    · exact h.2.1
    · decide
  have hcomp : components [] (absPath cs ++ (ds.map ('/' :: ·)).flatten ++ '/' :: f) = [] :: cs ++ ds ++ [f] := by
    have e : absPath cs ++ (ds.map ('/' :: ·)).flatten = absPath (cs ++ ds) := by simp [absPath, hne]
    rw [e, components_absPath _ (by
      intro c hc; rcases List.mem_append.mp hc with h | h
      · exact (hcs c h).2.1
      · exact hsl c h) (by simp [hne]), components_plain _ _ hf.2.1]
    simp
  have habs : isAbs (absPath cs ++ (ds.map ('/' :: ·)).flatten ++ '/' :: f) = true := by
    obtain ⟨r, e⟩ := absPath_abs cs
    rw [e]; rfl
  rw [plainReal, hcomp, habs, if_pos rfl]
  have : ([] :: cs ++ ds ++ [f]).foldl walk ([] : List Path) = ds.foldl walk cs ++ [f] := by
    have e : ([] :: cs).foldl walk ([] : List Path) = cs := by
      rw [List.foldl_cons, show walk [] [] = [] from rfl, foldl_walk_names [] cs hcs, List.nil_append]
    rw [List.foldl_append, List.foldl_append, e, List.foldl_cons, List.foldl_nil, walk_name hf]
  rw [this]

/-- C82: without symbolic links, for the program `<top>/<bin>/<prog>` the files are `/etc/lispd/<f>`,
`<top>/etc/lispd/<f>` and `<home>/.pylisp/lispd/<f>`. -/
theorem config_paths_plain (cwd top : List Path) (homes : Path → Option Path) (argv0 bin prog f : Path)
    (home : List Path) (slashes : Nat) (hreal : plainReal cwd argv0 = absPath (top ++ [bin, prog]))
    (htop : ∀ c ∈ top, FileName c) (hbin : FileName bin) (hprog : FileName prog) (hf : FileName f)
    (hhome : homes [] = some (absPath home ++ List.replicate slashes '/')) (hh : ∀ c ∈ home, FileName c) :
    configPaths (plainReal cwd) homes argv0 f =
      [absPath ["etc".toList, "lispd".toList, f], absPath (top ++ ["etc".toList, "lispd".toList, f]),
       absPath (home ++ [".pylisp".toList, "lispd".toList, f])] := by
  have hdirs : ∀ c ∈ top ++ [bin], FileName c := by
    intro c hc
    rcases List.mem_append.mp hc with h | h
    · exact htop c h
    · rw [List.mem_singleton.mp h]; exact hbin
  have hr : plainReal cwd argv0 = absPath (top ++ [bin]) ++ '/' :: prog := by
    rw [hreal, ← absPath_snoc _ _ (by simp)]; simp
  have fn : ∀ s : String, FileName s.toList ↔ FileName s.toList := fun _ => Iff.rfl
  have f1 : FileName "etc".toList := by unfold FileName; decide
  have f2 : FileName "lispd".toList := by unfold FileName; decide
  have f3 : FileName ".pylisp".toList := by unfold FileName; decide
  obtain ⟨home', k, hk, hend, e3⟩ : ∃ home' k, absPath home ++ List.replicate slashes '/' =
      home' ++ List.replicate k '/' ∧ NoSlashEnd home' ∧
      plainReal cwd (home' ++ "/.pylisp/lispd/".toList ++ f) = absPath (home ++ [".pylisp".toList, "lispd".toList, f]) := by
    have mem : ∀ c ∈ [".pylisp".toList, "lispd".toList], FileName c ∨ c = ['.', '.'] := by
      intro c hc
      simp only [List.mem_cons, List.not_mem_nil, or_false] at hc
      rcases hc with rfl | rfl
      · exact .inl f3
      · exact .inl f2
    by_cases hne : home = []
    · subst hne
      refine ⟨[], slashes + 1, rfl, (fun r e => by cases r <;> cases e), ?_⟩
      have e := plainReal_below cwd [".pylisp".toList] ["lispd".toList] f (by simp) (by simpa using f3)
        (by intro c hc; rw [List.mem_singleton.mp hc]; exact .inl f2) hf
      simp only [List.foldl_cons, List.foldl_nil, walk_name f2, List.append_assoc, List.cons_append,
        List.nil_append] at e
      rw [List.nil_append, List.nil_append, ← e]
      congr 1
    · refine ⟨absPath home, slashes, rfl, absPath_noSlashEnd _ hne hh, ?_⟩
      have e := plainReal_below cwd home [".pylisp".toList, "lispd".toList] f hne hh mem hf
      simp only [List.foldl_cons, List.foldl_nil, walk_name f2, walk_name f3, List.append_assoc, List.cons_append,
        List.nil_append] at e
      rw [← e]
      congr 1
      simp
  rw [config_paths (plainReal cwd) homes argv0 f _ prog home' k (fileName_relative hf) hr (.inr (absPath_abs _))
    (absPath_noSlashEnd _ (by simp) hdirs) hprog.2.1 (hhome.trans (congrArg some hk)) hend]
  have e1 := plainReal_below cwd ["etc".toList] ["lispd".toList] f (by simp) (by simpa using f1)
    (by intro c hc; rw [List.mem_singleton.mp hc]; exact .inl f2) hf
  have e2 := plainReal_below cwd (top ++ [bin]) ["..".toList, "etc".toList, "lispd".toList] f (by simp) hdirs
    (by intro c hc
        simp only [List.mem_cons, List.not_mem_nil, or_false] at hc
        rcases hc with rfl | rfl | rfl
        · exact .inr rfl
        · exact .inl f1
        · exact .inl f2) hf
  have w : ∀ path : List Path, walk path "..".toList = path.dropLast := fun path => rfl
  simp only [List.foldl_cons, List.foldl_nil, walk_name f1, walk_name f2, w, List.dropLast_append_cons,
    List.dropLast_singleton, List.append_nil, List.append_assoc, List.cons_append, List.nil_append] at e1 e2
  simp only [List.cons.injEq, and_true]
  refine ⟨?_, ?_, ?_⟩
  · rw [← e1]; congr 1
  · rw [← e2]; congr 1; simp
  · exact e3

/-- C82: of an absolute file name each character is taken for a file name of its own: the file itself is looked for
only if its name is one character long, so never for a name like `/etc/settings.py`. -/
theorem absolute_name_taken_apart (real : Path → Path) (homes : Path → Option Path) (argv0 f : Path)
    (h : ¬ Relative f) :
    (configPathsResult real homes argv0 f).flatten = f ∧ (∀ p ∈ configPathsResult real homes argv0 f, p.length = 1) ∧
      (f ∈ configPathsResult real homes argv0 f ↔ f = ['/']) := by
  have ha : isAbs f = true := by
    cases f with
    | nil => exact absurd (fun r e => by cases e) h
    | cons c r =>
      by_cases hc : c = '/'
      · simp [isAbs, hc]
      · exact absurd (fun r' e => hc (by cases e; rfl)) h
  have e : configPathsResult real homes argv0 f = f.map ([·]) := by rw [configPathsResult, if_pos ha]
  rw [e]
  have hl : ∀ p ∈ f.map ([·]), p.length = 1 := by
    intro p hp
    obtain ⟨c, _, rfl⟩ := List.mem_map.mp hp
    rfl
  refine ⟨?_, hl, ?_, ?_⟩
  · clear h ha e hl
    induction f with
    | nil => rfl
    | cons c r ih => simp [ih]
  · intro hm
    have := hl _ hm
    match f, this, ha with
    | [c], _, ha => simpa [isAbs] using ha
  · rintro rfl
    simp

/-- Specification: the value a file gives a setting, if it exists and defines it -/
def defines (f : ConfigFile) (n : String) : Option PyVal :=
  match f with
  | .module attrs => attrs n
  | _ => none

/-- C82: of the three files the one in the home directory overrules the one beside the program, and that overrules
the one in `/etc/lispd`: when the settings can be loaded none of the files is broken, and every setting has the value
of the first of them that defines it, else the default (LISTEN_ON: its texts become addresses). -/
theorem config_precedence (real : Path → Path) (homes : Path → Option Path) (argv0 : Path) (load : Path → ConfigFile)
    (defaults s : Settings) (etc own user : Path)
    (hpaths : configPaths real homes argv0 "settings.py".toList = [etc, own, user])
    (h : makeSettings real homes argv0 load defaults false = some s) :
    (load etc ≠ .broken ∧ load own ≠ .broken ∧ load user ≠ .broken) ∧
    (∀ n, n ≠ "LISTEN_ON" → n = n.toUpper →
      s n = ((defines (load user) n).or ((defines (load own) n).or (defines (load etc) n))).getD (defaults n)) ∧
    ∃ l l', ((defines (load user) "LISTEN_ON").or ((defines (load own) "LISTEN_ON").or
        (defines (load etc) "LISTEN_ON"))).getD (defaults "LISTEN_ON") = .listen l ∧
      ListenOk l l' ∧ s "LISTEN_ON" = .listen l' := by
  simp only [makeSettings, Bool.false_eq_true, if_false, potentialConfigFiles, configPathsResult] at h
  rw [if_neg (by decide), hpaths] at h
  obtain ⟨hb, l, l', _, h1, h2, _, _, _, h3, hs⟩ := (load_settings_iff _ _ _).mp h
  have key : ∀ n : String, n = n.toUpper → lastValue defaults ([etc, own, user].map load) n =
      ((defines (load user) n).or ((defines (load own) n).or (defines (load etc) n))).getD (defaults n) := by
    intro n hu
    have e : lastValue defaults ([etc, own, user].map load) n =
        ((([etc, own, user].map load).filterMap fun f => defines f n).getLast?).getD (defaults n) := by
      unfold lastValue
      congr 3
      funext f
      cases f <;> simp [defines, ← hu]
    rw [e]
    simp only [List.map_cons, List.map_nil, List.filterMap_cons, List.filterMap_nil]
    cases defines (load user) n <;> cases defines (load own) n <;> cases defines (load etc) n <;> rfl
  simp only [List.map_cons, List.map_nil, List.mem_cons, List.not_mem_nil, or_false, not_or] at hb
  refine ⟨⟨fun e => hb.1 e.symm, fun e => hb.2.1 e.symm, fun e => hb.2.2 e.symm⟩, fun n hn hu => ?_, l, l', ?_, h2, h3⟩
  · rw [hs n hn, key n hu]
  · rw [← key _ (by decide +kernel), h1]

/-! ### The hypotheses are met -/

/-- /usr/local/sbin/lispd of root: /etc/lispd, /usr/local/etc/lispd, /root/.pylisp/lispd -/
example : configPaths (plainReal ["tmp".toList]) (fun u => if u = [] then some "/root".toList else none)
    "/usr/bin/../local/sbin/lispd".toList "settings.py".toList =
      ["/etc/lispd/settings.py".toList, "/usr/local/etc/lispd/settings.py".toList,
       "/root/.pylisp/lispd/settings.py".toList] := by
  decide +kernel

/-- the program called by a relative name, and its hypotheses for `config_paths_plain` -/
example : plainReal ["home".toList, "me".toList] "pylisp/scripts/lispd".toList =
      absPath (["home".toList, "me".toList, "pylisp".toList] ++ ["scripts".toList, "lispd".toList]) ∧
    ∀ c ∈ ["home".toList, "me".toList, "pylisp".toList, "scripts".toList, "lispd".toList, "settings.py".toList],
      FileName c := by
  unfold FileName
  decide +kernel

/-- the settings of a host with a file beside the program and one in the home directory -/
example : ((makeSettings (plainReal []) (fun u => if u = [] then some "/root".toList else none)
    "/usr/sbin/lispd".toList (fun p =>
      if p = "/usr/etc/lispd/settings.py".toList then
        .module fun n => if n = "NATT" then some (.bool false) else if n = "SITE_ID" then some (.int 7) else none
      else if p = "/root/.pylisp/lispd/settings.py".toList then
        .module fun n => if n = "SITE_ID" then some (.int 8) else none
      else .ioError) exDefaults false).map fun s => (s "NATT", s "SITE_ID")) = some (.bool false, .int 8) := by
  decide +kernel

end PyLisp.Props
