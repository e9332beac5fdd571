/- The checkpoint manager: file names, the directory and its operations (src/checkpoint.rs 210-439).

The directory is a list of names and contents in the order in which `read_dir` lists them.  A name is a
sequence of characters, or one that is not valid UTF-8 (`to_str` gives `None`).  Checkpoint names contain
no path separator, every entry is a regular file, and reading, writing and deleting files does not fail;
a crash during a write leaves a prefix of the bytes. -/
import Verif.Model.Bincode

namespace GS

/-- Result of a library call that may return an error or panic: `Result<_, CheckpointError>`,
src/types.rs, of the functions of src/checkpoint.rs 216-439. -/
inductive Res (α : Type) where
  | ok (a : α)
  | err (e : CkErr)
  | panic
deriving DecidableEq

namespace Name

/-- Decimal digits, `fuel` bounding their number: `Display` of `usize` in src/checkpoint.rs 235. -/
def decAux : Nat → Nat → List Char
  | 0, _ => []
  | fuel + 1, x => if x < 10 then [Char.ofNat (48 + x)]
      else decAux fuel (x / 10) ++ [Char.ofNat (48 + x % 10)]

/-- `usize` in decimal: `Display` of `usize` in src/checkpoint.rs 235. -/
def decimal (x : Nat) : List Char := decAux (x + 1) x

/-- `{:06}`: src/checkpoint.rs 235. -/
def fmt6 (x : Nat) : List Char := List.replicate (6 - (decimal x).length) '0' ++ decimal x

/-- `.bin`: src/checkpoint.rs 235-237. -/
def ext : List Char := ['.', 'b', 'i', 'n']

/-- The file name used by `save_checkpoint`: src/checkpoint.rs 234-238. -/
def file (keepAll : Bool) (name : List Char) (iteration : Nat) : List Char :=
  if keepAll then name ++ ['_'] ++ fmt6 iteration ++ ext else name ++ ext

/-- src/checkpoint.rs 329, 371. -/
def digit? (c : Char) : Option Nat := if 48 ≤ c.toNat ∧ c.toNat ≤ 57 then some (c.toNat - 48) else none

/-- Digits of `usize::from_str`, with overflow check (64-bit). -/
def parseDigits : Nat → List Char → Option Nat
  | acc, [] => some acc
  | acc, c :: cs =>
    match digit? c with
    | none => none
    | some d => if acc * 10 + d < 2 ^ 64 then parseDigits (acc * 10 + d) cs else none

/-- `str::parse::<usize>`: an optional `+`, then at least one digit: src/checkpoint.rs 329, 371. -/
def parse : List Char → Option Nat
  | [] => none
  | c :: cs => if c = '+' then (if cs = [] then none else parseDigits 0 cs) else parseDigits 0 (c :: cs)

/-- Number of bytes of a string: string slicing at src/checkpoint.rs 327-329, 369-371. -/
def bytes (cs : List Char) : Nat := (cs.map Char.utf8Size).sum

/-- The first `k` bytes of a string; `none` if `k` is not a character boundary: string slicing at
src/checkpoint.rs 327-329, 369-371. -/
def takeBytes : Nat → List Char → Option (List Char)
  | 0, _ => some []
  | _ + 1, [] => none
  | k + 1, c :: cs => if c.utf8Size ≤ k + 1 then (takeBytes (k + 1 - c.utf8Size) cs).map (c :: ·) else none

/-- The string without its first `k` bytes; `none` if `k` is not a character boundary: string slicing at
src/checkpoint.rs 327-329, 369-371. -/
def dropBytes : Nat → List Char → Option (List Char)
  | 0, cs => some cs
  | _ + 1, [] => none
  | k + 1, c :: cs => if c.utf8Size ≤ k + 1 then dropBytes (k + 1 - c.utf8Size) cs else none

/-- `&s[a..b]`: `none` is a panic: string slicing at src/checkpoint.rs 327-329, 369-371. -/
def slice (s : List Char) (a b : Nat) : Option (List Char) :=
  if a ≤ b then (takeBytes b s).bind (dropBytes a) else none

/-- Iteration number of a directory entry: src/checkpoint.rs 327-334, 367-373.  Outer `none`: panic of the
slicing; inner `none`: the entry is skipped. -/
def iteration (name file : List Char) : Option (Option Nat) :=
  let pattern := name ++ ['_']
  if pattern.isPrefixOf file && ext.isSuffixOf file then
    match slice file (bytes pattern) (bytes file - 4) with
    | none => none
    | some s => some (parse s)
  else some none

end Name

/-- A directory entry's name; `other` are names that are not UTF-8: `file_name().to_str()` at
src/checkpoint.rs 322-326, 364-368. -/
inductive FName where
  | utf8 (cs : List Char)
  | other (id : Nat)
deriving DecidableEq

/-- The checkpoint directory, src/checkpoint.rs 210-227. -/
abbrev Dir := List (FName × Bytes)

namespace Dir

/-- `fs::read`: src/checkpoint.rs 270-283. -/
def lookup (d : Dir) (f : FName) : Option Bytes := (d.find? fun e => decide (e.1 = f)).map Prod.snd

/-- Set the contents of a file, creating it if needed: `fs::write`: src/checkpoint.rs 249. -/
def write (d : Dir) (f : FName) (b : Bytes) : Dir :=
  if d.any (fun e => decide (e.1 = f)) then d.map fun e => if e.1 = f then (f, b) else e
  else d ++ [(f, b)]

/-- `fs::remove_file`: src/checkpoint.rs 380-385. -/
def remove (d : Dir) (f : FName) : Dir := d.filter fun e => decide (e.1 ≠ f)

end Dir

/-- `CheckpointManager` (src/checkpoint.rs 210-212) of a build with features `feat`. -/
structure Manager where
  feat : Feat
  name : List Char
  keepAll : Bool

namespace Manager

/-- `save_checkpoint`: src/checkpoint.rs 229-255. -/
def save (m : Manager) (d : Dir) (c : WCkpt) (iteration : Nat) : Dir :=
  d.write (.utf8 (Name.file m.keepAll m.name iteration)) (Enc.ckpt m.feat c)

/-- The directory after a crash inside `fs::write` (src/checkpoint.rs 249): the file has been created or
truncated and `k` bytes have been written. -/
def crashSave (m : Manager) (d : Dir) (c : WCkpt) (iteration k : Nat) : Dir :=
  d.write (.utf8 (Name.file m.keepAll m.name iteration)) ((Enc.ckpt m.feat c).take k)

/-- `load_checkpoint_from_path`: src/checkpoint.rs 270-293; also `read_checkpoint_file` (419-439). -/
def loadPath (m : Manager) (d : Dir) (f : FName) : Res WCkpt :=
  match d.lookup f with
  | none => .err .notFound
  | some b =>
    match decodeFile m.feat b with
    | none => .err .serialization
    | some c => .ok c

/-- Iteration number of an entry for this manager (`Name.iteration`); names that are not UTF-8 are
skipped: src/checkpoint.rs 320-334. -/
def entryIter (name : List Char) : FName → Option (Option Nat)
  | .other _ => some none
  | .utf8 cs => Name.iteration name cs

/-- The loop of `find_latest_checkpoint`: src/checkpoint.rs 316-338. -/
def scan (name : List Char) : Dir → Nat → Option FName → Res (Option FName)
  | [], _, best => .ok best
  | e :: rest, it, best =>
    match entryIter name e.1 with
    | none => .panic
    | some none => scan name rest it best
    | some (some i) => if it < i then scan name rest i (some e.1) else scan name rest it best

/-- `find_latest_checkpoint`: src/checkpoint.rs 306-342. -/
def findLatest (m : Manager) (d : Dir) : Res FName :=
  match scan m.name d 0 none with
  | .ok (some f) => .ok f
  | .ok none => .err .notFound
  | .err e => .err e
  | .panic => .panic

/-- `load_latest_checkpoint`: src/checkpoint.rs 258-267. -/
def loadLatest (m : Manager) (d : Dir) : Res WCkpt :=
  if m.keepAll then
    match m.findLatest d with
    | .ok f => m.loadPath d f
    | .err e => .err e
    | .panic => .panic
  else m.loadPath d (.utf8 (Name.file false m.name 0))

/-- `checkpoint_exists`: src/checkpoint.rs 296-303. -/
def exists? (m : Manager) (d : Dir) : Res Bool :=
  if m.keepAll then
    match m.findLatest d with
    | .ok _ => .ok true
    | .err _ => .ok false
    | .panic => .panic
  else .ok (d.lookup (.utf8 (Name.file false m.name 0))).isSome

/-- The loop of `cleanup_old_checkpoints`: src/checkpoint.rs 359-377. -/
def collect (name : List Char) : Dir → Option (List (Nat × FName))
  | [] => some []
  | e :: rest =>
    match entryIter name e.1 with
    | none => none
    | some none => collect name rest
    | some (some i) => (collect name rest).map ((i, e.1) :: ·)

/-- Stable insertion, largest iteration first: `sort_by` at src/checkpoint.rs 378. -/
def insertDesc (x : Nat × FName) : List (Nat × FName) → List (Nat × FName)
  | [] => [x]
  | y :: ys => if y.1 ≤ x.1 then x :: y :: ys else y :: insertDesc x ys

/-- `checkpoints.sort_by(|a, b| b.0.cmp(&a.0))`, a stable sort: src/checkpoint.rs 379. -/
def sortDesc : List (Nat × FName) → List (Nat × FName)
  | [] => []
  | x :: xs => insertDesc x (sortDesc xs)

/-- `cleanup_old_checkpoints`: src/checkpoint.rs 345-388. -/
def cleanup (m : Manager) (d : Dir) (keep : Nat) : Res Dir :=
  if !m.keepAll || decide (keep = 0) then .ok d
  else
    match collect m.name d with
    | none => .panic
    | some l => .ok (((sortDesc l).drop keep).foldl (fun d e => d.remove e.2) d)

/-- What `try_resume_from_checkpoint` finds (src/oqnlp.rs 1366-1375): nothing, or the result of loading. -/
def discover (m : Manager) (d : Dir) : Res (Option (Except CkErr WCkpt)) :=
  match m.exists? d with
  | .ok true =>
    match m.loadLatest d with
    | .ok c => .ok (some (.ok c))
    | .err e => .ok (some (.error e))
    | .panic => .panic
  | .ok false => .ok none
  | .err e => .err e
  | .panic => .panic

end Manager
end GS
