import Verif.Model.Convert

/-!
# Model of `write_df_to_xlsx` (Utils.py:6253-6323) and of the dataframes written by `write_to_xlsx` (Convert_data.py)

Paths are strings of characters, compared as they are (no normalisation: two spellings of one file are two paths).
A file system maps every path to what is there.
-/

namespace Reliability.WriteXlsx

open Reliability Reliability.Convert

abbrev Path := List Char

/-- The operating system: what separates the components of a path. -/
inductive OS where
  | windows
  | posix
  deriving DecidableEq

/-- `os.sep` and `os.altsep`. -/
def OS.isSep : OS → Char → Bool
  | .windows, c => c == '\\' || c == '/'
  | .posix, c => c == '/'

/-- `ntpath.splitdrive` for drive letters (UNC names are not modelled); nothing on posix. -/
def splitDrive (os : OS) (p : Path) : Path × Path :=
  match os, p with
  | .windows, c :: ':' :: rest => ([c, ':'], rest)
  | _, p => ([], p)

/-- Everything after the last separator. -/
def tailOf (os : OS) (p : Path) : Path := (p.reverse.takeWhile fun c => !os.isSep c).reverse

/-- Everything up to and with the last separator. -/
def headOf (os : OS) (p : Path) : Path := (p.reverse.dropWhile fun c => !os.isSep c).reverse

/-- `head.rstrip(seps) or head`. -/
def stripSeps (os : OS) (h : Path) : Path :=
  let s := (h.reverse.dropWhile os.isSep).reverse
  if s = [] then h else s

/-- `os.path.split(path)`. -/
def split (os : OS) (p : Path) : Path × Path :=
  let d := splitDrive os p
  (d.1 ++ stripSeps os (headOf os d.2), tailOf os d.2)

/-- Utils.py:6298-6303 — the new name: `Y[0] + "(new)" + "." + Y[1]` with `Y = X[1].split(".")`, after `X[0] + "\\"`. `none` is the
IndexError of `Y[1]` when there is no dot. -/
def rename (os : OS) (p : Path) : Option Path :=
  let X := split os p
  match X.2.dropWhile (· ≠ '.') with
  | [] => none
  | _ :: rest => some (X.1 ++ '\\' :: (X.2.takeWhile (· ≠ '.') ++ "(new).".toList ++ rest.takeWhile (· ≠ '.')))

/-- What is at a path. -/
inductive Node (S : Type) where
  | absent
  | file (readable writable : Bool) (content : S)
  | directory

/-- A file system. -/
abbrev FS (S : Type) := Path → Node S

/-- `open(path)` succeeds (6287): a file that may be read.  Every failure is an `IOError` (6311). -/
def opens {S : Type} (fs : FS S) (p : Path) : Bool :=
  match fs p with
  | .file true _ _ => true
  | _ => false

/-- Ways to end without having written. -/
inductive Fail where
  /-- `IndexError` of `Y[1]` -/
  | index
  /-- `EOFError` of `input` -/
  | eof
  /-- `OSError` when writing -/
  | io
  /-- an error raised by pandas -/
  | pandas (e : Err)
  deriving DecidableEq

/-- The path to write to, and whether it was changed. -/
structure Target where
  path : Path
  changed : Bool
  deriving DecidableEq

/-- The loop of Utils.py:6284-6312.  `ask` is `counter2 == 1` in this pass; `answers` is what `input` returns, in order (at the end
of the input it raises `EOFError`). `none`: still looping after `fuel` passes. -/
def choose {S : Type} (os : OS) (fs : FS S) : ℕ → Bool → Target → List String → Option (Except Fail Target)
  | 0, _, _, _ => none
  | fuel + 1, ask, t, answers =>
    if opens fs t.path then
      match ask, answers with
      | true, [] => some (.error .eof)
      | true, a :: rest =>
        if upperStr a = "N" then
          match rename os t.path with
          | none => some (.error .index)
          | some p => choose os fs fuel false ⟨p, true⟩ rest
        else if upperStr a = "Y" then some (.ok t)
        else choose os fs fuel true t rest
      | false, answers =>
        match rename os t.path with
        | none => some (.error .index)
        | some p => choose os fs fuel false ⟨p, true⟩ answers
    else some (.ok t)

/-- A keyword argument for pandas. -/
inductive Arg where
  | bool (b : Bool)
  | other (s : String)
  deriving DecidableEq

/-- The keyword arguments passed on to `to_excel` (6316-6323): `excel_writer` removed, `index` set to `False` unless given. -/
def pandasArgs (kwargs : List (String × Arg)) : Arg × List (String × Arg) :=
  ((kwargs.lookup "index").getD (.bool false), kwargs.filter fun p => p.1 ≠ "excel_writer" ∧ p.1 ≠ "index")

/-- What `df.to_excel(path, index=..., **kwargs)` does (6323): `render` is pandas (it raises, or gives the content of the file; it
sees the path because its extension selects the engine), then the file is written, which fails for directories and write
protected files. -/
def toExcel {D S : Type} (render : D → Path → Arg → List (String × Arg) → Except Err S) (df : D) (p : Path) (args : Arg × List (String × Arg))
    (fs : FS S) : Except Fail (FS S) :=
  match render df p args.1 args.2 with
  | .error e => .error (.pandas e)
  | .ok s =>
    match fs p with
    | .absent => .ok (Function.update fs p (.file true true s))
    | .file r true _ => .ok (Function.update fs p (.file r true s))
    | .file _ false _ => .error .io
    | .directory => .error .io

/-- Utils.py:6253-6323 — `write_df_to_xlsx(df, path, **kwargs)`: the file system after it, and the path that was written. -/
def writeDf {D S : Type} (render : D → Path → Arg → List (String × Arg) → Except Err S) (os : OS) (fs : FS S) (fuel : ℕ) (df : D)
    (path : Path) (answers : List String) (kwargs : List (String × Arg)) : Option (Except Fail (FS S × Target)) :=
  match choose os fs fuel true ⟨path, false⟩ answers with
  | none => none
  | some (.error e) => some (.error e)
  | some (.ok t) =>
    match toExcel render df t.path (pandasArgs kwargs) fs with
    | .error e => some (.error e)
    | .ok fs' => some (.ok (fs', t))

end Reliability.WriteXlsx
