/-
Model of `dso::http_get`: src/web/http_get.cpp:13-76.

The transfer library, the C stream and the file system are outside the program.  What they do is a
parameter (`Env`), with these assumptions:
* `fopen(…, "wb")` on a directory fails; on anything else it succeeds or fails as the environment says,
  and success truncates the file;
* libcurl hands the body to `write_data` chunk by chunk, stops with `CURLE_WRITE_ERROR` (23) at the
  first chunk of which `write_data` reports fewer bytes than were handed over, and otherwise ends with
  some code of its own; `CURLcode` values are not negative;
* `fclose` may lose a tail of the accepted bytes (they are buffered) and reports this only through its
  result, which `http_get` ignores;
* `remove` deletes a file or an empty directory, or fails.
Concurrent changes of the file system by other processes are not modelled.
-/
namespace Verif.Web

/-- What is stored under a name. -/
inductive Node
  | absent
  | file (content : List UInt8)
  | dir (empty : Bool)
  deriving DecidableEq, Repr

/-- A file system. -/
abbrev Fs := String → Node

/-- Replace what is stored under a name. -/
def Fs.put (fs : Fs) (path : String) (n : Node) : Fs := fun q => if q = path then n else fs q

/-- The outcomes of the external calls of one download. -/
structure Env where
  /-- `fopen` succeeds (if the name is not a directory) -/
  opens : Bool
  /-- chunks of the body, each with the number of bytes `fwrite` accepts -/
  chunks : List (List UInt8 × Nat)
  /-- `CURLcode` once all chunks were accepted; not 0 if the transfer broke off -/
  code : Nat
  /-- number of accepted bytes that are on disk after `fclose` -/
  kept : Nat
  /-- `remove` succeeds (if the name is a file or an empty directory) -/
  removes : Bool

/-- `write_data` for every chunk (src/web/http_get.cpp:13-16) inside `curl_easy_perform`
(src/web/http_get.cpp:61): the bytes accepted by the stream and the resulting `CURLcode`. -/
def perform : List (List UInt8 × Nat) → Nat → List UInt8 × Nat
  | [], code => ([], code)
  | (c, n) :: cs, code =>
    if n < c.length then (c.take n, 23)
    else
      let r := perform cs code
      (c ++ r.1, r.2)

/-- `file_exists` (src/web/http_get.cpp:18-22): a regular file. -/
def fileExists (fs : Fs) (path : String) : Bool :=
  match fs path with
  | .file _ => true
  | _ => false

/-- `remove(local)` (src/web/http_get.cpp:68). -/
def removeFile (e : Env) (fs : Fs) (path : String) : Fs :=
  match fs path with
  | .absent => fs
  | .file _ => if e.removes then fs.put path .absent else fs
  | .dir true => if e.removes then fs.put path .absent else fs
  | .dir false => fs

/-- `fopen(local, "wb")` succeeds (src/web/http_get.cpp:54). -/
def canOpen (e : Env) (fs : Fs) (path : String) : Bool :=
  match fs path with
  | .dir _ => false
  | _ => e.opens

/-- Opening, transfer and closing (src/web/http_get.cpp:31, 53-65): the status and the file system. -/
def fetch (e : Env) (fs : Fs) (path : String) : Int × Fs :=
  if canOpen e fs path then
    let r := perform e.chunks e.code
    ((r.2 : Int), fs.put path (.file (r.1.take e.kept)))
  else (1, fs)

/-- `http_get` (src/web/http_get.cpp:24-76): the returned value, the file system afterwards, and
whether a transfer was attempted. -/
def httpGet (e : Env) (fs : Fs) (path : String) (force : Bool) : Int × Fs × Bool :=
  if !force && fileExists fs path then (-1, fs, false)
  else
    let r := fetch e fs path
    let fs' := if r.1 ≠ 0 then removeFile e r.2 path else r.2
    (if r.1 < 0 then r.1 * (-1) else r.1, fs', canOpen e fs path)

end Verif.Web
