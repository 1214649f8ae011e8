import Verif.Sip.Charsets

/-!
# Generated identifiers

`util/util.go`. The bytes read from the system's random generator and the numbers drawn by
`rand.Int(rand.Reader, max)` (documented to be in `[0, max)`) are arguments. A failure of the random
generator, on which the code panics, is not modelled.
-/

namespace Gosip.Util

/-- `hex.EncodeToString`. -/
def hexEncode (b : Bytes) : Bytes := b.flatMap fun (c : UInt8) => [Sip.hexChar (c >>> 4), Sip.hexChar (c % 16)]

/-- `GenerateCSeq` (`util/util.go:45-52`) for the number drawn below 50000. -/
def generateCSeq (n : Fin 50000) : Int := n.val

/-- `GenerateTag` (`util/util.go:55-57`) for the six random bytes. -/
def generateTag (r : Bytes) : Bytes := hexEncode r

/-- `GenerateBranch` (`util/util.go:61-63`). -/
def generateBranch (r : Bytes) : Bytes := b!"z9hG4bK-" ++ generateTag r

/-- `GenerateCallID` (`util/util.go:66-75`) for the fifteen random bytes. -/
def generateCallID (r : Bytes) : Bytes :=
  let digs := hexEncode r
  digs.take 8 ++ b!"-" ++ (digs.drop 8).take 4 ++ b!"-4" ++ (digs.drop 12).take 3 ++ b!"-a" ++
    (digs.drop 15).take 3 ++ b!"-" ++ digs.drop 18

/-- `GenerateOriginID` (`util/util.go:78-85`) for the number drawn below `math.MaxUint32`. -/
def generateOriginID (n : Fin (2 ^ 32 - 1)) : Bytes := natDec n.val

end Gosip.Util
