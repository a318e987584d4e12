import Verif.Settings
/-
Where lispd looks for its configuration: application/lispd/settings.py:66-87, with the functions of `posixpath` (Python 2.7) it uses.
A path is a list of characters.  `os.path.realpath` depends on the links in the file system and is a parameter;
`plainReal` is what it comes to in a file system without symbolic links.
-/
namespace PyLisp

/-- a file name (settings.py:66-87) -/
abbrev Path := List Char

/-- `posixpath.isabs` (application/lispd/settings.py:68) -/
def isAbs (p : Path) : Bool := match p with | c :: _ => c == '/' | [] => false

/-- `posixpath.join` of two paths (application/lispd/settings.py:74, 76-78) -/
def pathJoin (a b : Path) : Path :=
  if isAbs b then b
  else if a = [] ∨ a.getLast? = some '/' then a ++ b
  else a ++ '/' :: b

/-- `posixpath.join(a, *bs)` -/
def pathJoins (a : Path) (bs : List Path) : Path := bs.foldl pathJoin a

/-- `str.rstrip('/')` -/
def rstripSlash (p : Path) : Path := (p.reverse.dropWhile (· == '/')).reverse

/-- `posixpath.dirname` (application/lispd/settings.py:73): everything up to and including the last slash, without its slashes at
the end unless there is nothing else -/
def dirName (p : Path) : Path :=
  let head := (p.reverse.dropWhile (· != '/')).reverse
  if rstripSlash head = [] then head else rstripSlash head

/-- `posixpath.expanduser` (application/lispd/settings.py:80); `homes []` is the home directory of the user of the program (`HOME`,
or else the password database), `homes n` that of the user `n` -/
def expandUser (homes : Path → Option Path) (p : Path) : Path :=
  match p with
  | '~' :: r =>
    match homes (r.takeWhile (· != '/')) with
    | none => p
    | some h =>
      let q := rstripSlash h ++ r.dropWhile (· != '/')
      if q = [] then ['/'] else q
  | _ => p

/-- application/lispd/settings.py:66-83 `get_config_paths` for a relative path: `real` is `os.path.realpath`, `argv0` is `sys.argv[0]`.
(For an absolute path the method returns the path itself, a string and not a list, lines 68-69; see
`configPathsResult`.) -/
def configPaths (real : Path → Path) (homes : Path → Option Path) (argv0 f : Path) : List Path :=
  let executableDir := dirName (real argv0)
  let configDir := pathJoins executableDir ["..".toList, "etc".toList]
  [pathJoins ['/'] ["etc".toList, "lispd".toList, f],
   pathJoins configDir ["lispd".toList, f],
   pathJoins ['~'] [".pylisp".toList, "lispd".toList, f]].map (real ∘ expandUser homes)

/-- what `for filename in …` (application/lispd/settings.py:92) sees: the list, or (for an absolute path, 68-69) the characters of
the path, one by one -/
def configPathsResult (real : Path → Path) (homes : Path → Option Path) (argv0 f : Path) : List Path :=
  if isAbs f then f.map ([·]) else configPaths real homes argv0 f

/-- application/lispd/settings.py:85-87 -/
def potentialConfigFiles (real : Path → Path) (homes : Path → Option Path) (argv0 : Path) : List Path :=
  configPathsResult real homes argv0 "settings.py".toList

/-- application/lispd/settings.py:55-57 and 89-115: `Settings()`; `load` is what loading the file of a name comes to -/
def makeSettings (real : Path → Path) (homes : Path → Option Path) (argv0 : Path) (load : Path → ConfigFile)
    (defaults : Settings) (onlyDefaults : Bool) : Option Settings :=
  if onlyDefaults then some defaults
  else loadSettings defaults ((potentialConfigFiles real homes argv0).map load)

/-! `posixpath.realpath` in a file system without symbolic links -/

/-- the parts of a path between its slashes -/
def components (cur : Path) : Path → List Path
  | [] => [cur]
  | c :: r => if c = '/' then cur :: components [] r else components (cur ++ [c]) r

/-- one part after a resolved path -/
def walk (path : List Path) (name : Path) : List Path :=
  if name = [] ∨ name = ['.'] then path
  else if name = ['.', '.'] then path.dropLast
  else path ++ [name]

/-- an absolute path with the given parts -/
def absPath (cs : List Path) : Path := if cs = [] then ['/'] else (cs.map ('/' :: ·)).flatten

/-- `posixpath.realpath` where no part is a symbolic link; `cwd` are the parts of the working directory -/
def plainReal (cwd : List Path) (p : Path) : Path :=
  absPath ((components [] p).foldl walk (if isAbs p then [] else cwd))

end PyLisp
