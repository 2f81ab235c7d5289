import Verif.Spec.Cli
/-! # Specification: the decimal digits of the scripts (C94)

The Unicode code charts of version 14: each script has its ten digits in a row, from the code point of its zero. -/
set_option autoImplicit false

namespace Verif.Spec

/-- the scripts with decimal digits, and the code point of the zero of each -/
def digitScripts : List (String × Nat) :=
  [("Ascii", 0x30), ("Arabic-indic", 0x660), ("Extended arabic-indic", 0x6f0), ("Nko", 0x7c0),
   ("Devanagari", 0x966), ("Bengali", 0x9e6), ("Gurmukhi", 0xa66), ("Gujarati", 0xae6),
   ("Oriya", 0xb66), ("Tamil", 0xbe6), ("Telugu", 0xc66), ("Kannada", 0xce6),
   ("Malayalam", 0xd66), ("Sinhala lith", 0xde6), ("Thai", 0xe50), ("Lao", 0xed0),
   ("Tibetan", 0xf20), ("Myanmar", 0x1040), ("Myanmar shan", 0x1090), ("Khmer", 0x17e0),
   ("Mongolian", 0x1810), ("Limbu", 0x1946), ("New tai lue", 0x19d0), ("Tai tham hora", 0x1a80),
   ("Tai tham tham", 0x1a90), ("Balinese", 0x1b50), ("Sundanese", 0x1bb0), ("Lepcha", 0x1c40),
   ("Ol chiki", 0x1c50), ("Vai", 0xa620), ("Saurashtra", 0xa8d0), ("Kayah li", 0xa900),
   ("Javanese", 0xa9d0), ("Myanmar tai laing", 0xa9f0), ("Cham", 0xaa50), ("Meetei mayek", 0xabf0),
   ("Fullwidth", 0xff10), ("Osmanya", 0x104a0), ("Hanifi rohingya", 0x10d30), ("Brahmi", 0x11066),
   ("Sora sompeng", 0x110f0), ("Chakma", 0x11136), ("Sharada", 0x111d0), ("Khudawadi", 0x112f0),
   ("Newa", 0x11450), ("Tirhuta", 0x114d0), ("Modi", 0x11650), ("Takri", 0x116c0),
   ("Ahom", 0x11730), ("Warang citi", 0x118e0), ("Dives akuru", 0x11950), ("Bhaiksuki", 0x11c50),
   ("Masaram gondi", 0x11d50), ("Gunjala gondi", 0x11da0), ("Mro", 0x16a60), ("Tangsa", 0x16ac0),
   ("Pahawh hmong", 0x16b50), ("Mathematical bold", 0x1d7ce), ("Mathematical double-struck", 0x1d7d8), ("Mathematical sans-serif", 0x1d7e2),
   ("Mathematical sans-serif bold", 0x1d7ec), ("Mathematical monospace", 0x1d7f6), ("Nyiakeng puachue hmong", 0x1e140), ("Wancho", 0x1e2f0),
   ("Adlam", 0x1e950), ("Segmented", 0x1fbf0)]

/-- the character is a decimal digit of some script -/
def IsDecimal (c : Char) : Prop := ∃ s ∈ digitScripts, ∃ d < 10, c.toNat = s.2 + d

end Verif.Spec
