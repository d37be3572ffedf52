import Verif.Model.Gzip
import Verif.Spec.Proto

/-!
# Specification vocabulary for compressed files (C104)
-/

namespace Verif.Spec
open Verif

/-- What is relied on about zlib: decompression inverts compression, and from the beginning of a compressed stream it gets
a beginning of the original. -/
structure LawfulZlib (z : Zlib) : Prop where
  inverse : ∀ compress bytes, z.inflate (z.deflate compress bytes) = bytes
  streaming : ∀ compress bytes k, z.inflate ((z.deflate compress bytes).take k) <+: bytes

/-- A build of the library: without zlib, or with a lawful one. -/
def LawfulBuild (z : Option Zlib) : Prop := ∀ x, z = some x → LawfulZlib x

end Verif.Spec
