/-! Characters and strings of HTTP, as in RFC 9110 and RFC 3986 and RFC 5234; independent of the model. -/
namespace Nghttp3.Spec

def isUpper (c : UInt8) : Bool := 0x41 ≤ c && c ≤ 0x5a
def isLower (c : UInt8) : Bool := 0x61 ≤ c && c ≤ 0x7a
def isDigit (c : UInt8) : Bool := 0x30 ≤ c && c ≤ 0x39

/-- ASCII lower case of a letter; other bytes stay -/
def lowerChar (c : UInt8) : UInt8 := if isUpper c then c + 32 else c

def lower (s : List UInt8) : List UInt8 := s.map lowerChar

/-- the bytes of an ASCII string -/
def ascii (s : String) : List UInt8 := s.toList.map fun c => UInt8.ofNat c.toNat

/-- RFC 9110, 5.6.2: tchar -/
def isTchar (c : UInt8) : Bool := isUpper c || isLower c || isDigit c || c ∈ ascii "!#$%&'*+-.^_`|~"

end Nghttp3.Spec
