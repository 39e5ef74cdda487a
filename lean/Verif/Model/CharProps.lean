import Verif.Model.Go
/-!
# Model of textseg/internal/charprops/properties.go
-/

namespace Textseg

/-- properties.go:10 `type CharProperties uint8` -/
abbrev CharProperties := UInt8
/-- properties.go:58 `type GCBProperty uint8` -/
abbrev GCBProperty := UInt8
/-- properties.go:198 `type InCBProperty uint8` -/
abbrev InCBProperty := UInt8

-- properties.go:60-81, the constants of GCBProperty
def GCBNone                 : GCBProperty := 0x00 -- properties.go:61
def GCBCR                   : GCBProperty := 0x01 -- properties.go:62
def GCBControl              : GCBProperty := 0x02 -- properties.go:63
def GCBExtend               : GCBProperty := 0x03 -- properties.go:64
def GCBExtendedPictographic : GCBProperty := 0x04 -- properties.go:65
def GCBL                    : GCBProperty := 0x05 -- properties.go:66
def GCBLF                   : GCBProperty := 0x06 -- properties.go:67
def GCBLV                   : GCBProperty := 0x07 -- properties.go:68
def GCBLVT                  : GCBProperty := 0x08 -- properties.go:69
def GCBPrepend              : GCBProperty := 0x09 -- properties.go:70
def GCBRegionalIndicator    : GCBProperty := 0x0a -- properties.go:71
def GCBSpacingMark          : GCBProperty := 0x0b -- properties.go:72
def GCBT                    : GCBProperty := 0x0c -- properties.go:73
def GCBV                    : GCBProperty := 0x0d -- properties.go:74
def GCBZWJ                  : GCBProperty := 0x0e -- properties.go:75
def GCBError                : GCBProperty := 0x0f -- properties.go:80

-- properties.go:200-210, the constants of InCBProperty
def InCBNone      : InCBProperty := 0x00 -- properties.go:201
def InCBConsonant : InCBProperty := 0x10 -- properties.go:202
def InCBExtend    : InCBProperty := 0x20 -- properties.go:203
def InCBLinker    : InCBProperty := 0x30 -- properties.go:204
def InCBError     : InCBProperty := 0xf0 -- properties.go:209

/-- properties.go:12 `const Error` (named `ErrorProps` here) -/
def ErrorProps : CharProperties := GCBError ||| InCBError

/-- properties.go:14-16 `MakeCharProperties` -/
def MakeCharProperties (gcpProp emojiProp : GCBProperty) (inCBProp : InCBProperty) : CharProperties :=
  gcpProp ||| emojiProp ||| inCBProp

/-- properties.go:18-20 `CharProperties.GCBProperty` -/
def gcbProperty (cp : CharProperties) : GCBProperty := cp &&& 0x0f

/-- properties.go:22-24 `CharProperties.InCBProperty` -/
def inCBProperty (cp : CharProperties) : InCBProperty := cp &&& 0xf0

/-- properties.go:85-116 `LookupGCBProperty` -/
def LookupGCBProperty (name : GoString) : GCBProperty :=
  if name = str "CR" then GCBCR
  else if name = str "Control" then GCBControl
  else if name = str "Extend" then GCBExtend
  else if name = str "L" then GCBL
  else if name = str "LF" then GCBLF
  else if name = str "LV" then GCBLV
  else if name = str "LVT" then GCBLVT
  else if name = str "Prepend" then GCBPrepend
  else if name = str "Regional_Indicator" then GCBRegionalIndicator
  else if name = str "SpacingMark" then GCBSpacingMark
  else if name = str "T" then GCBT
  else if name = str "V" then GCBV
  else if name = str "ZWJ" then GCBZWJ
  else GCBNone

/-- properties.go:128-135 `LookupEmojiProperty` -/
def LookupEmojiProperty (name : GoString) : GCBProperty :=
  if name = str "Extended_Pictographic" then GCBExtendedPictographic else GCBNone

/-- properties.go:137-144 `GCBProperty.IsAnyControl` -/
def isAnyControl (p : GCBProperty) : Bool :=
  p == GCBLF || p == GCBCR || p == GCBControl

/-- properties.go:214-225 `LookupInCBProperty` -/
def LookupInCBProperty (name : GoString) : InCBProperty :=
  if name = str "Consonant" then InCBConsonant
  else if name = str "Extend" then InCBExtend
  else if name = str "Linker" then InCBLinker
  else InCBNone

/-- One lower-case hexadecimal digit (`%x`). -/
def hexDigit (n : UInt8) : UInt8 := if n < 10 then 48 + n else 87 + n

/-- `fmt.Sprintf("0x%02x", uint8(p))`, as used at properties.go:181 and 236 -/
def sprintf0x02x (p : UInt8) : GoString :=
  [0x30, 0x78, hexDigit (p >>> 4), hexDigit (p &&& 0xf)]

/-- properties.go:146-183 `GCBProperty.String` -/
def gcbString (p : GCBProperty) : GoString :=
  if p = GCBCR then str "CR"
  else if p = GCBControl then str "Control"
  else if p = GCBExtend then str "Extend"
  else if p = GCBL then str "L"
  else if p = GCBLF then str "LF"
  else if p = GCBLV then str "LV"
  else if p = GCBLVT then str "LVT"
  else if p = GCBPrepend then str "Prepend"
  else if p = GCBRegionalIndicator then str "Regional_Indicator"
  else if p = GCBSpacingMark then str "SpacingMark"
  else if p = GCBT then str "T"
  else if p = GCBV then str "V"
  else if p = GCBZWJ then str "ZWJ"
  else if p = GCBExtendedPictographic then str "Extended_Pictographic"
  else if p = GCBNone then str "None"
  else if p = GCBError then str "Error"
  else sprintf0x02x p

/-- properties.go:227-238 `InCBProperty.String` -/
def inCBString (p : InCBProperty) : GoString :=
  if p = InCBConsonant then str "Consonant"
  else if p = InCBExtend then str "Extend"
  else if p = InCBLinker then str "Linker"
  else sprintf0x02x p

/-- properties.go:26-43 `CharProperties.String` -/
def charPropertiesString (cp : CharProperties) : GoString :=
  if cp = 0 then str "None"
  else if cp = ErrorProps then str "Error"
  else
    let gcbP := gcbProperty cp
    let inCBP := inCBProperty cp
    if inCBP = InCBNone then gcbString gcbP
    else if gcbP = GCBNone then str "InCB=" ++ inCBString inCBP
    else gcbString gcbP ++ str "|InCB=" ++ inCBString inCBP

end Textseg
