import Verif.Model.GenPrint
/-!
# Model of the command `go run generate.go`: `main` with its effects

textseg/internal/charprops/generate.go:15-78 and gentable/generate.go:21-40: opening the data files, the messages, the exit status
and the writing of property_table_raw.go. What the operating system answers is arbitrary (`OS`). Not modelled: `format.Source`
(go/format), which is a parameter; the wording of the messages. Simplification: the argument of `BuildRawPropertyTree` is "ucd",
as in `main`, so that `filepath.Join` is evaluated; the data files are never closed, nor is the output.
-/

namespace Textseg.Gen
open Textseg

/-- The errors that `main` prints. -/
inductive GenErr where
  /-- `os.Open` or `os.Create` has failed -/
  | os (path : String) (msg : String)
  /-- gentable/generate.go:50, 63 and 79: `reading <file>: <error>` -/
  | reading (file : String) (e : ParseErr)
  /-- `format.Source` has failed -/
  | format (msg : String)
deriving DecidableEq, Repr

/-- What the program does to the outside world, in order. -/
inductive Event where
  /-- a file was opened for reading -/
  | opened (path : String)
  /-- a message on the standard error output -/
  | message (e : GenErr)
  /-- `os.Create(path)` has succeeded: the file exists and is empty -/
  | created (path : String)
  /-- a byte has been added at the end of a created file -/
  | stored (path : String) (b : UInt8)
deriving DecidableEq, Repr

/-- How the process ends. -/
inductive Exit where
  /-- `os.Exit(n)`, or the end of `main` (0) -/
  | status (n : Nat)
  /-- a panic (a message, and the status 2) -/
  | panicked (p : GoPanic)
deriving DecidableEq, Repr

/-- What the operating system answers: the result of `os.Open` for a path (for a file: the state of a reader); what reading an
open file gives; the result of `os.Create`; and how many of the given bytes `f.Write` has written when it returns (if not all, it
returns an error). -/
structure OS (σ : Type) where
  openFile : String → Except String σ
  read : Reader σ
  create : String → Except String Unit
  write : List UInt8 → Nat

/-- gentable/generate.go:22 -/
def gbpPath : String := "ucd/auxiliary/GraphemeBreakProperty.txt"
/-- gentable/generate.go:23 -/
def emojiPath : String := "ucd/emoji/emoji-data.txt"
/-- gentable/generate.go:24 -/
def dcpPath : String := "ucd/DerivedCoreProperties.txt"
/-- charprops/generate.go:72 -/
def tablePath : String := "property_table_raw.go"

/-- gentable/generate.go:41-93, after the files have been opened; as `BuildRawPropertyTree`, with the wrapping of errors at lines 50,
63 and 79. -/
def readTree {σ : Type} (read : Reader σ) (fuel : Nat) (rd1 rd2 rd3 : σ) : Go (Except GenErr RawPropertyTree) := do
  match ← readFile read gbpEntry fuel (newScanner rd1 0) newTree with
  | .error e => .ok (.error (.reading "GraphemeBreakProperty.txt" e))
  | .ok t =>
    match ← readFile read emojiEntry fuel (newScanner rd2 0) t with
    | .error e => .ok (.error (.reading "emoji-data.txt" e))
    | .ok t =>
      match ← readFile read dcpEntry fuel (newScanner rd3 0) t with
      | .error e => .ok (.error (.reading "DerivedCoreProperties.txt" e))
      | .ok t => do
        let raw ← t.Compact
        .ok (.ok raw)

/-- gentable/generate.go:21-94 `BuildRawPropertyTree("ucd")`, with the files it opens. -/
def buildTree {σ : Type} (os : OS σ) (fuel : Nat) : List Event × Go (Except GenErr RawPropertyTree) :=
  match os.openFile gbpPath with
  | .error msg => ([], .ok (.error (.os gbpPath msg)))
  | .ok rd1 =>
    match os.openFile emojiPath with
    | .error msg => ([.opened gbpPath], .ok (.error (.os emojiPath msg)))
    | .ok rd2 =>
      match os.openFile dcpPath with
      | .error msg => ([.opened gbpPath, .opened emojiPath], .ok (.error (.os dcpPath msg)))
      | .ok rd3 => ([.opened gbpPath, .opened emojiPath, .opened dcpPath], readTree os.read fuel rd1 rd2 rd3)

/-- charprops/generate.go:66-77: the source is formatted and written. The number of bytes written and the error that `f.Write`
returns are ignored (line 77). -/
def writeTable {σ : Type} (os : OS σ) (formatSource : GoString → Except String GoString) (buf : GoString) : List Event × Exit :=
  match formatSource buf with
  | .error msg => ([.message (.format msg)], .status 1)
  | .ok src =>
    match os.create tablePath with
    | .error msg => ([.message (.os tablePath msg)], .status 1)
    | .ok () => (.created tablePath :: (src.take (os.write src)).map (.stored tablePath), .status 0)

/-- charprops/generate.go:15-78 `main`: what it does, in order, and how it ends. -/
def main {σ : Type} (os : OS σ) (formatSource : GoString → Except String GoString) (fuel : Nat) : List Event × Exit :=
  match buildTree os fuel with
  | (evs, .error p) => (evs, .panicked p)
  | (evs, .ok (.error e)) => (evs ++ [.message e], .status 1)
  | (evs, .ok (.ok tree)) =>
    match printSource tree with
    | .error p => (evs, .panicked p)
    | .ok buf =>
      let (evs', exit) := writeTable os formatSource buf
      (evs ++ evs', exit)

end Textseg.Gen
