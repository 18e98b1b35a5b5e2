import Verif.Model.Print

/-!
# data/gen.go: the program that writes fallback.go

Left out: log lines, closing.  The text of the time is what `fmt` prints for it, any text here.
-/

namespace Fasttld

/-- What the operating system answers to gen.go. -/
structure GenEnv where
  /-- `http.Get` and reading of the body, gen.go:26, 30 -/
  response : Response
  /-- `os.Create`, gen.go:34: whether there was no error; the file is empty then -/
  created : Bool
  /-- `time.Now`, gen.go:44, as printed -/
  now : Bytes
  /-- the `n`-th write to the file, of those that text/template makes: `none` if all was written, otherwise the number of
  bytes after which it failed -/
  write : Nat → Option Nat

/-- gen.go:23 -/
def genURL : Bytes := b! "https://publicsuffix.org/list/public_suffix_list.dat"

/-- The pieces that `pslTemplate.Execute` writes, one call of `Write` each (gen.go:56-64; text/template). -/
def genPieces (now content : Bytes) : List Bytes :=
  [b! "package fasttld\n\n// Code generated by go generate; DO NOT EDIT.\n// This file was generated by robots at\n// ", now,
   b! "\n// using data from\n// ", genURL, b! "\n\nconst hardcodedPSL string = `", content, b! "`\n"]

/-- The writes, from the `n`-th on: what gets into the file.  After the first failure nothing more is written. -/
def genWrites (write : Nat → Option Nat) : (n : Nat) → List Bytes → Bytes
  | _, [] => []
  | n, p :: ps =>
    match write n with
    | none => p ++ genWrites write (n + 1) ps
    | some k => p.take k

/-- gen.go:22-48 `main`: the exit status and the contents of fallback.go, which were `old` before. -/
def genMain (env : GenEnv) (old : Option Bytes) : Nat × Option Bytes :=
  match env.response with
  | .failed => (1, old)                                                    -- :26-27
  | .status _ _ false => (1, old)                                          -- :30-31
  | .status _ body true =>
    if env.created then
      (0, some (genWrites env.write 0 (genPieces env.now body)))           -- :34-47; errors of Seek and Execute are ignored
    else (1, old)                                                          -- :34-36

end Fasttld
