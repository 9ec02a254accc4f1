-- GENERATED by /verif/tools/gen_lexer.py from /repo; do not edit.
import Verif.Lexer.Regex
import Verif.Grammar.Kinds
/-!
# The lexer rules as data

Models the `#[token]` and `#[regex]` attributes of `crates/sparql-parser/src/syntax_kind/generated.rs`, in order.
Adjacent single-character alternatives are written as one class. `ignore(case)` and `(?i:..)` are modelled as ASCII case
folding. `\d` is Unicode category Nd and `\s` the Unicode white space characters.
-/
namespace Verif.Lexer
open Verif.Grammar

/-- A lexer rule: kind, pattern, and whether an ASCII word boundary (`\b`) must follow. -/
structure LexRule where
  kind : Kind
  re : Regex
  boundary : Bool


/-- `\d`: Unicode category Nd (as in Unicode 14.0.0). -/
def digit : Class := [(0x30, 0x39), (0x660, 0x669), (0x6F0, 0x6F9), (0x7C0, 0x7C9), (0x966, 0x96F), (0x9E6, 0x9EF), (0xA66, 0xA6F), (0xAE6, 0xAEF), (0xB66, 0xB6F), (0xBE6, 0xBEF), (0xC66, 0xC6F), (0xCE6, 0xCEF), (0xD66, 0xD6F), (0xDE6, 0xDEF), (0xE50, 0xE59), (0xED0, 0xED9), (0xF20, 0xF29), (0x1040, 0x1049), (0x1090, 0x1099), (0x17E0, 0x17E9), (0x1810, 0x1819), (0x1946, 0x194F), (0x19D0, 0x19D9), (0x1A80, 0x1A89), (0x1A90, 0x1A99), (0x1B50, 0x1B59), (0x1BB0, 0x1BB9), (0x1C40, 0x1C49), (0x1C50, 0x1C59), (0xA620, 0xA629), (0xA8D0, 0xA8D9), (0xA900, 0xA909), (0xA9D0, 0xA9D9), (0xA9F0, 0xA9F9), (0xAA50, 0xAA59), (0xABF0, 0xABF9), (0xFF10, 0xFF19), (0x104A0, 0x104A9), (0x10D30, 0x10D39), (0x11066, 0x1106F), (0x110F0, 0x110F9), (0x11136, 0x1113F), (0x111D0, 0x111D9), (0x112F0, 0x112F9), (0x11450, 0x11459), (0x114D0, 0x114D9), (0x11650, 0x11659), (0x116C0, 0x116C9), (0x11730, 0x11739), (0x118E0, 0x118E9), (0x11950, 0x11959), (0x11C50, 0x11C59), (0x11D50, 0x11D59), (0x11DA0, 0x11DA9), (0x16A60, 0x16A69), (0x16AC0, 0x16AC9), (0x16B50, 0x16B59), (0x1D7CE, 0x1D7FF), (0x1E140, 0x1E149), (0x1E2F0, 0x1E2F9), (0x1E950, 0x1E959), (0x1FBF0, 0x1FBF9)]

/-- `\s`: Unicode white space. -/
def space : Class := [(0x9, 0xD), (0x20, 0x20), (0x85, 0x85), (0xA0, 0xA0), (0x1680, 0x1680), (0x2000, 0x200A), (0x2028, 0x2029), (0x202F, 0x202F), (0x205F, 0x205F), (0x3000, 0x3000)]

/-- `WHITESPACE` (syntax_kind/generated.rs L9). -/
def rule_WHITESPACE : LexRule := ⟨K.WHITESPACE, plus (.cls [(0x9, 0xA), (0xC, 0xD), (0x20, 0x20)]), false⟩

/-- `Comment` (syntax_kind/generated.rs L11). -/
def rule_Comment : LexRule := ⟨K.Comment, seqs [.cls [(0x23, 0x23)], .star (.cls [(0x0, 0x9), (0xB, 0xC), (0xE, 0x10FFFF)])], false⟩

/-- `BASE` (syntax_kind/generated.rs L13). -/
def rule_BASE : LexRule := ⟨K.BASE, seqs [.cls [(0x42, 0x42), (0x62, 0x62)], .cls [(0x41, 0x41), (0x61, 0x61)], .cls [(0x53, 0x53), (0x73, 0x73)], .cls [(0x45, 0x45), (0x65, 0x65)]], false⟩

/-- `IRIREF` (syntax_kind/generated.rs L15). -/
def rule_IRIREF : LexRule := ⟨K.IRIREF, seqs [.cls [(0x3C, 0x3C)], .star (.cls [(0x21, 0x21), (0x23, 0x3B), (0x3D, 0x3D), (0x3F, 0x5B), (0x5D, 0x5D), (0x5F, 0x5F), (0x61, 0x7A), (0x7E, 0x10FFFF)]), .cls [(0x3E, 0x3E)]], false⟩

/-- `PREFIX` (syntax_kind/generated.rs L17). -/
def rule_PREFIX : LexRule := ⟨K.PREFIX, seqs [.cls [(0x50, 0x50), (0x70, 0x70)], .cls [(0x52, 0x52), (0x72, 0x72)], .cls [(0x45, 0x45), (0x65, 0x65)], .cls [(0x46, 0x46), (0x66, 0x66)], .cls [(0x49, 0x49), (0x69, 0x69)], .cls [(0x58, 0x58), (0x78, 0x78)]], false⟩

/-- `PNAME_NS` (syntax_kind/generated.rs L19). -/
def rule_PNAME_NS : LexRule := ⟨K.PNAME_NS, seqs [opt (seqs [.cls [(0x41, 0x5A), (0x61, 0x7A), (0xC0, 0xD6), (0xD8, 0xF6), (0xF8, 0x2FF), (0x370, 0x37D), (0x37F, 0x1FFF), (0x200C, 0x200D), (0x2070, 0x218F), (0x2C00, 0x2FEF), (0x3001, 0xD7FF), (0xF900, 0xFDCF), (0xFDF0, 0xFFFD), (0x10000, 0xEFFFF)], opt (seqs [.star (.cls [(0x2D, 0x2E), (0x30, 0x39), (0x41, 0x5A), (0x5F, 0x5F), (0x61, 0x7A), (0xB7, 0xB7), (0xC0, 0xD6), (0xD8, 0xF6), (0xF8, 0x37D), (0x37F, 0x1FFF), (0x200C, 0x200D), (0x203F, 0x2040), (0x2070, 0x218F), (0x2C00, 0x2FEF), (0x3001, 0xD7FF), (0xF900, 0xFDCF), (0xFDF0, 0xFFFD), (0x10000, 0xEFFFF)]), .cls [(0x2D, 0x2D), (0x30, 0x39), (0x41, 0x5A), (0x5F, 0x5F), (0x61, 0x7A), (0xB7, 0xB7), (0xC0, 0xD6), (0xD8, 0xF6), (0xF8, 0x37D), (0x37F, 0x1FFF), (0x200C, 0x200D), (0x203F, 0x2040), (0x2070, 0x218F), (0x2C00, 0x2FEF), (0x3001, 0xD7FF), (0xF900, 0xFDCF), (0xFDF0, 0xFFFD), (0x10000, 0xEFFFF)]])]), .cls [(0x3A, 0x3A)]], false⟩

/-- `SELECT` (syntax_kind/generated.rs L21). -/
def rule_SELECT : LexRule := ⟨K.SELECT, seqs [.cls [(0x53, 0x53), (0x73, 0x73)], .cls [(0x45, 0x45), (0x65, 0x65)], .cls [(0x4C, 0x4C), (0x6C, 0x6C)], .cls [(0x45, 0x45), (0x65, 0x65)], .cls [(0x43, 0x43), (0x63, 0x63)], .cls [(0x54, 0x54), (0x74, 0x74)]], false⟩

/-- `DISTINCT` (syntax_kind/generated.rs L23). -/
def rule_DISTINCT : LexRule := ⟨K.DISTINCT, seqs [.cls [(0x44, 0x44), (0x64, 0x64)], .cls [(0x49, 0x49), (0x69, 0x69)], .cls [(0x53, 0x53), (0x73, 0x73)], .cls [(0x54, 0x54), (0x74, 0x74)], .cls [(0x49, 0x49), (0x69, 0x69)], .cls [(0x4E, 0x4E), (0x6E, 0x6E)], .cls [(0x43, 0x43), (0x63, 0x63)], .cls [(0x54, 0x54), (0x74, 0x74)]], false⟩

/-- `REDUCED` (syntax_kind/generated.rs L25). -/
def rule_REDUCED : LexRule := ⟨K.REDUCED, seqs [.cls [(0x52, 0x52), (0x72, 0x72)], .cls [(0x45, 0x45), (0x65, 0x65)], .cls [(0x44, 0x44), (0x64, 0x64)], .cls [(0x55, 0x55), (0x75, 0x75)], .cls [(0x43, 0x43), (0x63, 0x63)], .cls [(0x45, 0x45), (0x65, 0x65)], .cls [(0x44, 0x44), (0x64, 0x64)]], false⟩

/-- `LParen` (syntax_kind/generated.rs L27). -/
def rule_LParen : LexRule := ⟨K.LParen, .cls [(0x28, 0x28)], false⟩

/-- `AS` (syntax_kind/generated.rs L29). -/
def rule_AS : LexRule := ⟨K.AS, seqs [.cls [(0x41, 0x41), (0x61, 0x61)], .cls [(0x53, 0x53), (0x73, 0x73)]], false⟩

/-- `RParen` (syntax_kind/generated.rs L31). -/
def rule_RParen : LexRule := ⟨K.RParen, .cls [(0x29, 0x29)], false⟩

/-- `Star` (syntax_kind/generated.rs L33). -/
def rule_Star : LexRule := ⟨K.Star, .cls [(0x2A, 0x2A)], false⟩

/-- `CONSTRUCT` (syntax_kind/generated.rs L35). -/
def rule_CONSTRUCT : LexRule := ⟨K.CONSTRUCT, seqs [.cls [(0x43, 0x43), (0x63, 0x63)], .cls [(0x4F, 0x4F), (0x6F, 0x6F)], .cls [(0x4E, 0x4E), (0x6E, 0x6E)], .cls [(0x53, 0x53), (0x73, 0x73)], .cls [(0x54, 0x54), (0x74, 0x74)], .cls [(0x52, 0x52), (0x72, 0x72)], .cls [(0x55, 0x55), (0x75, 0x75)], .cls [(0x43, 0x43), (0x63, 0x63)], .cls [(0x54, 0x54), (0x74, 0x74)]], false⟩

/-- `WHERE` (syntax_kind/generated.rs L37). -/
def rule_WHERE : LexRule := ⟨K.WHERE, seqs [.cls [(0x57, 0x57), (0x77, 0x77)], .cls [(0x48, 0x48), (0x68, 0x68)], .cls [(0x45, 0x45), (0x65, 0x65)], .cls [(0x52, 0x52), (0x72, 0x72)], .cls [(0x45, 0x45), (0x65, 0x65)]], false⟩

/-- `LCurly` (syntax_kind/generated.rs L39). -/
def rule_LCurly : LexRule := ⟨K.LCurly, .cls [(0x7B, 0x7B)], false⟩

/-- `RCurly` (syntax_kind/generated.rs L41). -/
def rule_RCurly : LexRule := ⟨K.RCurly, .cls [(0x7D, 0x7D)], false⟩

/-- `LCurlyPipe` (syntax_kind/generated.rs L43). -/
def rule_LCurlyPipe : LexRule := ⟨K.LCurlyPipe, seqs [.cls [(0x7B, 0x7B)], .cls [(0x7C, 0x7C)]], false⟩

/-- `PipeRCurly` (syntax_kind/generated.rs L45). -/
def rule_PipeRCurly : LexRule := ⟨K.PipeRCurly, seqs [.cls [(0x7C, 0x7C)], .cls [(0x7D, 0x7D)]], false⟩

/-- `DESCRIBE` (syntax_kind/generated.rs L47). -/
def rule_DESCRIBE : LexRule := ⟨K.DESCRIBE, seqs [.cls [(0x44, 0x44), (0x64, 0x64)], .cls [(0x45, 0x45), (0x65, 0x65)], .cls [(0x53, 0x53), (0x73, 0x73)], .cls [(0x43, 0x43), (0x63, 0x63)], .cls [(0x52, 0x52), (0x72, 0x72)], .cls [(0x49, 0x49), (0x69, 0x69)], .cls [(0x42, 0x42), (0x62, 0x62)], .cls [(0x45, 0x45), (0x65, 0x65)]], false⟩

/-- `ASK` (syntax_kind/generated.rs L49). -/
def rule_ASK : LexRule := ⟨K.ASK, seqs [.cls [(0x41, 0x41), (0x61, 0x61)], .cls [(0x53, 0x53), (0x73, 0x73)], .cls [(0x4B, 0x4B), (0x6B, 0x6B)]], false⟩

/-- `FROM` (syntax_kind/generated.rs L51). -/
def rule_FROM : LexRule := ⟨K.FROM, seqs [.cls [(0x46, 0x46), (0x66, 0x66)], .cls [(0x52, 0x52), (0x72, 0x72)], .cls [(0x4F, 0x4F), (0x6F, 0x6F)], .cls [(0x4D, 0x4D), (0x6D, 0x6D)]], false⟩

/-- `NAMED` (syntax_kind/generated.rs L53). -/
def rule_NAMED : LexRule := ⟨K.NAMED, seqs [.cls [(0x4E, 0x4E), (0x6E, 0x6E)], .cls [(0x41, 0x41), (0x61, 0x61)], .cls [(0x4D, 0x4D), (0x6D, 0x6D)], .cls [(0x45, 0x45), (0x65, 0x65)], .cls [(0x44, 0x44), (0x64, 0x64)]], false⟩

/-- `GROUP` (syntax_kind/generated.rs L55). -/
def rule_GROUP : LexRule := ⟨K.GROUP, seqs [.cls [(0x47, 0x47), (0x67, 0x67)], .cls [(0x52, 0x52), (0x72, 0x72)], .cls [(0x4F, 0x4F), (0x6F, 0x6F)], .cls [(0x55, 0x55), (0x75, 0x75)], .cls [(0x50, 0x50), (0x70, 0x70)]], false⟩

/-- `BY` (syntax_kind/generated.rs L57). -/
def rule_BY : LexRule := ⟨K.BY, seqs [.cls [(0x42, 0x42), (0x62, 0x62)], .cls [(0x59, 0x59), (0x79, 0x79)]], false⟩

/-- `HAVING` (syntax_kind/generated.rs L59). -/
def rule_HAVING : LexRule := ⟨K.HAVING, seqs [.cls [(0x48, 0x48), (0x68, 0x68)], .cls [(0x41, 0x41), (0x61, 0x61)], .cls [(0x56, 0x56), (0x76, 0x76)], .cls [(0x49, 0x49), (0x69, 0x69)], .cls [(0x4E, 0x4E), (0x6E, 0x6E)], .cls [(0x47, 0x47), (0x67, 0x67)]], false⟩

/-- `ORDER` (syntax_kind/generated.rs L61). -/
def rule_ORDER : LexRule := ⟨K.ORDER, seqs [.cls [(0x4F, 0x4F), (0x6F, 0x6F)], .cls [(0x52, 0x52), (0x72, 0x72)], .cls [(0x44, 0x44), (0x64, 0x64)], .cls [(0x45, 0x45), (0x65, 0x65)], .cls [(0x52, 0x52), (0x72, 0x72)]], false⟩

/-- `ASC` (syntax_kind/generated.rs L63). -/
def rule_ASC : LexRule := ⟨K.ASC, seqs [.cls [(0x41, 0x41), (0x61, 0x61)], .cls [(0x53, 0x53), (0x73, 0x73)], .cls [(0x43, 0x43), (0x63, 0x63)]], false⟩

/-- `DESC` (syntax_kind/generated.rs L65). -/
def rule_DESC : LexRule := ⟨K.DESC, seqs [.cls [(0x44, 0x44), (0x64, 0x64)], .cls [(0x45, 0x45), (0x65, 0x65)], .cls [(0x53, 0x53), (0x73, 0x73)], .cls [(0x43, 0x43), (0x63, 0x63)]], false⟩

/-- `LIMIT` (syntax_kind/generated.rs L67). -/
def rule_LIMIT : LexRule := ⟨K.LIMIT, seqs [.cls [(0x4C, 0x4C), (0x6C, 0x6C)], .cls [(0x49, 0x49), (0x69, 0x69)], .cls [(0x4D, 0x4D), (0x6D, 0x6D)], .cls [(0x49, 0x49), (0x69, 0x69)], .cls [(0x54, 0x54), (0x74, 0x74)]], false⟩

/-- `OFFSET` (syntax_kind/generated.rs L69). -/
def rule_OFFSET : LexRule := ⟨K.OFFSET, seqs [.cls [(0x4F, 0x4F), (0x6F, 0x6F)], .cls [(0x46, 0x46), (0x66, 0x66)], .cls [(0x46, 0x46), (0x66, 0x66)], .cls [(0x53, 0x53), (0x73, 0x73)], .cls [(0x45, 0x45), (0x65, 0x65)], .cls [(0x54, 0x54), (0x74, 0x74)]], false⟩

/-- `VALUES` (syntax_kind/generated.rs L71). -/
def rule_VALUES : LexRule := ⟨K.VALUES, seqs [.cls [(0x56, 0x56), (0x76, 0x76)], .cls [(0x41, 0x41), (0x61, 0x61)], .cls [(0x4C, 0x4C), (0x6C, 0x6C)], .cls [(0x55, 0x55), (0x75, 0x75)], .cls [(0x45, 0x45), (0x65, 0x65)], .cls [(0x53, 0x53), (0x73, 0x73)]], false⟩

/-- `Semicolon` (syntax_kind/generated.rs L73). -/
def rule_Semicolon : LexRule := ⟨K.Semicolon, .cls [(0x3B, 0x3B)], false⟩

/-- `LOAD` (syntax_kind/generated.rs L75). -/
def rule_LOAD : LexRule := ⟨K.LOAD, seqs [.cls [(0x4C, 0x4C), (0x6C, 0x6C)], .cls [(0x4F, 0x4F), (0x6F, 0x6F)], .cls [(0x41, 0x41), (0x61, 0x61)], .cls [(0x44, 0x44), (0x64, 0x64)]], false⟩

/-- `SILENT` (syntax_kind/generated.rs L77). -/
def rule_SILENT : LexRule := ⟨K.SILENT, seqs [.cls [(0x53, 0x53), (0x73, 0x73)], .cls [(0x49, 0x49), (0x69, 0x69)], .cls [(0x4C, 0x4C), (0x6C, 0x6C)], .cls [(0x45, 0x45), (0x65, 0x65)], .cls [(0x4E, 0x4E), (0x6E, 0x6E)], .cls [(0x54, 0x54), (0x74, 0x74)]], false⟩

/-- `INTO` (syntax_kind/generated.rs L79). -/
def rule_INTO : LexRule := ⟨K.INTO, seqs [.cls [(0x49, 0x49), (0x69, 0x69)], .cls [(0x4E, 0x4E), (0x6E, 0x6E)], .cls [(0x54, 0x54), (0x74, 0x74)], .cls [(0x4F, 0x4F), (0x6F, 0x6F)]], false⟩

/-- `CLEAR` (syntax_kind/generated.rs L81). -/
def rule_CLEAR : LexRule := ⟨K.CLEAR, seqs [.cls [(0x43, 0x43), (0x63, 0x63)], .cls [(0x4C, 0x4C), (0x6C, 0x6C)], .cls [(0x45, 0x45), (0x65, 0x65)], .cls [(0x41, 0x41), (0x61, 0x61)], .cls [(0x52, 0x52), (0x72, 0x72)]], false⟩

/-- `DROP` (syntax_kind/generated.rs L83). -/
def rule_DROP : LexRule := ⟨K.DROP, seqs [.cls [(0x44, 0x44), (0x64, 0x64)], .cls [(0x52, 0x52), (0x72, 0x72)], .cls [(0x4F, 0x4F), (0x6F, 0x6F)], .cls [(0x50, 0x50), (0x70, 0x70)]], false⟩

/-- `CREATE` (syntax_kind/generated.rs L85). -/
def rule_CREATE : LexRule := ⟨K.CREATE, seqs [.cls [(0x43, 0x43), (0x63, 0x63)], .cls [(0x52, 0x52), (0x72, 0x72)], .cls [(0x45, 0x45), (0x65, 0x65)], .cls [(0x41, 0x41), (0x61, 0x61)], .cls [(0x54, 0x54), (0x74, 0x74)], .cls [(0x45, 0x45), (0x65, 0x65)]], false⟩

/-- `ADD` (syntax_kind/generated.rs L87). -/
def rule_ADD : LexRule := ⟨K.ADD, seqs [.cls [(0x41, 0x41), (0x61, 0x61)], .cls [(0x44, 0x44), (0x64, 0x64)], .cls [(0x44, 0x44), (0x64, 0x64)]], false⟩

/-- `TO` (syntax_kind/generated.rs L89). -/
def rule_TO : LexRule := ⟨K.TO, seqs [.cls [(0x54, 0x54), (0x74, 0x74)], .cls [(0x4F, 0x4F), (0x6F, 0x6F)]], false⟩

/-- `MOVE` (syntax_kind/generated.rs L91). -/
def rule_MOVE : LexRule := ⟨K.MOVE, seqs [.cls [(0x4D, 0x4D), (0x6D, 0x6D)], .cls [(0x4F, 0x4F), (0x6F, 0x6F)], .cls [(0x56, 0x56), (0x76, 0x76)], .cls [(0x45, 0x45), (0x65, 0x65)]], false⟩

/-- `COPY` (syntax_kind/generated.rs L93). -/
def rule_COPY : LexRule := ⟨K.COPY, seqs [.cls [(0x43, 0x43), (0x63, 0x63)], .cls [(0x4F, 0x4F), (0x6F, 0x6F)], .cls [(0x50, 0x50), (0x70, 0x70)], .cls [(0x59, 0x59), (0x79, 0x79)]], false⟩

/-- `INSERT` (syntax_kind/generated.rs L95). -/
def rule_INSERT : LexRule := ⟨K.INSERT, seqs [.cls [(0x49, 0x49), (0x69, 0x69)], .cls [(0x4E, 0x4E), (0x6E, 0x6E)], .cls [(0x53, 0x53), (0x73, 0x73)], .cls [(0x45, 0x45), (0x65, 0x65)], .cls [(0x52, 0x52), (0x72, 0x72)], .cls [(0x54, 0x54), (0x74, 0x74)]], false⟩

/-- `DATA` (syntax_kind/generated.rs L97). -/
def rule_DATA : LexRule := ⟨K.DATA, seqs [.cls [(0x44, 0x44), (0x64, 0x64)], .cls [(0x41, 0x41), (0x61, 0x61)], .cls [(0x54, 0x54), (0x74, 0x74)], .cls [(0x41, 0x41), (0x61, 0x61)]], false⟩

/-- `INSERT_DATA` (syntax_kind/generated.rs L100). -/
def rule_INSERT_DATA : LexRule := ⟨K.INSERT_DATA, seqs [.cls [(0x49, 0x49), (0x69, 0x69)], .cls [(0x4E, 0x4E), (0x6E, 0x6E)], .cls [(0x53, 0x53), (0x73, 0x73)], .cls [(0x45, 0x45), (0x65, 0x65)], .cls [(0x52, 0x52), (0x72, 0x72)], .cls [(0x54, 0x54), (0x74, 0x74)], .cls [(0x20, 0x20)], .cls [(0x44, 0x44), (0x64, 0x64)], .cls [(0x41, 0x41), (0x61, 0x61)], .cls [(0x54, 0x54), (0x74, 0x74)], .cls [(0x41, 0x41), (0x61, 0x61)]], false⟩

/-- `DELETE_DATA` (syntax_kind/generated.rs L103). -/
def rule_DELETE_DATA : LexRule := ⟨K.DELETE_DATA, seqs [.cls [(0x44, 0x44), (0x64, 0x64)], .cls [(0x45, 0x45), (0x65, 0x65)], .cls [(0x4C, 0x4C), (0x6C, 0x6C)], .cls [(0x45, 0x45), (0x65, 0x65)], .cls [(0x54, 0x54), (0x74, 0x74)], .cls [(0x45, 0x45), (0x65, 0x65)], plus (.cls space), .cls [(0x44, 0x44), (0x64, 0x64)], .cls [(0x41, 0x41), (0x61, 0x61)], .cls [(0x54, 0x54), (0x74, 0x74)], .cls [(0x41, 0x41), (0x61, 0x61)]], false⟩

/-- `DELETE_WHERE` (syntax_kind/generated.rs L105). -/
def rule_DELETE_WHERE : LexRule := ⟨K.DELETE_WHERE, seqs [.cls [(0x44, 0x44), (0x64, 0x64)], .cls [(0x45, 0x45), (0x65, 0x65)], .cls [(0x4C, 0x4C), (0x6C, 0x6C)], .cls [(0x45, 0x45), (0x65, 0x65)], .cls [(0x54, 0x54), (0x74, 0x74)], .cls [(0x45, 0x45), (0x65, 0x65)], plus (.cls space), .cls [(0x57, 0x57), (0x77, 0x77)], .cls [(0x48, 0x48), (0x68, 0x68)], .cls [(0x45, 0x45), (0x65, 0x65)], .cls [(0x52, 0x52), (0x72, 0x72)], .cls [(0x45, 0x45), (0x65, 0x65)]], false⟩

/-- `DELETE` (syntax_kind/generated.rs L107). -/
def rule_DELETE : LexRule := ⟨K.DELETE, seqs [.cls [(0x44, 0x44), (0x64, 0x64)], .cls [(0x45, 0x45), (0x65, 0x65)], .cls [(0x4C, 0x4C), (0x6C, 0x6C)], .cls [(0x45, 0x45), (0x65, 0x65)], .cls [(0x54, 0x54), (0x74, 0x74)], .cls [(0x45, 0x45), (0x65, 0x65)]], false⟩

/-- `WITH` (syntax_kind/generated.rs L109). -/
def rule_WITH : LexRule := ⟨K.WITH, seqs [.cls [(0x57, 0x57), (0x77, 0x77)], .cls [(0x49, 0x49), (0x69, 0x69)], .cls [(0x54, 0x54), (0x74, 0x74)], .cls [(0x48, 0x48), (0x68, 0x68)]], false⟩

/-- `USING` (syntax_kind/generated.rs L111). -/
def rule_USING : LexRule := ⟨K.USING, seqs [.cls [(0x55, 0x55), (0x75, 0x75)], .cls [(0x53, 0x53), (0x73, 0x73)], .cls [(0x49, 0x49), (0x69, 0x69)], .cls [(0x4E, 0x4E), (0x6E, 0x6E)], .cls [(0x47, 0x47), (0x67, 0x67)]], false⟩

/-- `DEFAULT` (syntax_kind/generated.rs L113). -/
def rule_DEFAULT : LexRule := ⟨K.DEFAULT, seqs [.cls [(0x44, 0x44), (0x64, 0x64)], .cls [(0x45, 0x45), (0x65, 0x65)], .cls [(0x46, 0x46), (0x66, 0x66)], .cls [(0x41, 0x41), (0x61, 0x61)], .cls [(0x55, 0x55), (0x75, 0x75)], .cls [(0x4C, 0x4C), (0x6C, 0x6C)], .cls [(0x54, 0x54), (0x74, 0x74)]], false⟩

/-- `GRAPH` (syntax_kind/generated.rs L115). -/
def rule_GRAPH : LexRule := ⟨K.GRAPH, seqs [.cls [(0x47, 0x47), (0x67, 0x67)], .cls [(0x52, 0x52), (0x72, 0x72)], .cls [(0x41, 0x41), (0x61, 0x61)], .cls [(0x50, 0x50), (0x70, 0x70)], .cls [(0x48, 0x48), (0x68, 0x68)]], false⟩

/-- `ALL` (syntax_kind/generated.rs L117). -/
def rule_ALL : LexRule := ⟨K.ALL, seqs [.cls [(0x41, 0x41), (0x61, 0x61)], .cls [(0x4C, 0x4C), (0x6C, 0x6C)], .cls [(0x4C, 0x4C), (0x6C, 0x6C)]], false⟩

/-- `Dot` (syntax_kind/generated.rs L119). -/
def rule_Dot : LexRule := ⟨K.Dot, .cls [(0x2E, 0x2E)], false⟩

/-- `Tilde` (syntax_kind/generated.rs L121). -/
def rule_Tilde : LexRule := ⟨K.Tilde, .cls [(0x7E, 0x7E)], false⟩

/-- `OPTIONAL` (syntax_kind/generated.rs L123). -/
def rule_OPTIONAL : LexRule := ⟨K.OPTIONAL, seqs [.cls [(0x4F, 0x4F), (0x6F, 0x6F)], .cls [(0x50, 0x50), (0x70, 0x70)], .cls [(0x54, 0x54), (0x74, 0x74)], .cls [(0x49, 0x49), (0x69, 0x69)], .cls [(0x4F, 0x4F), (0x6F, 0x6F)], .cls [(0x4E, 0x4E), (0x6E, 0x6E)], .cls [(0x41, 0x41), (0x61, 0x61)], .cls [(0x4C, 0x4C), (0x6C, 0x6C)]], false⟩

/-- `SERVICE` (syntax_kind/generated.rs L125). -/
def rule_SERVICE : LexRule := ⟨K.SERVICE, seqs [.cls [(0x53, 0x53), (0x73, 0x73)], .cls [(0x45, 0x45), (0x65, 0x65)], .cls [(0x52, 0x52), (0x72, 0x72)], .cls [(0x56, 0x56), (0x76, 0x76)], .cls [(0x49, 0x49), (0x69, 0x69)], .cls [(0x43, 0x43), (0x63, 0x63)], .cls [(0x45, 0x45), (0x65, 0x65)]], false⟩

/-- `BIND` (syntax_kind/generated.rs L127). -/
def rule_BIND : LexRule := ⟨K.BIND, seqs [.cls [(0x42, 0x42), (0x62, 0x62)], .cls [(0x49, 0x49), (0x69, 0x69)], .cls [(0x4E, 0x4E), (0x6E, 0x6E)], .cls [(0x44, 0x44), (0x64, 0x64)]], false⟩

/-- `NIL` (syntax_kind/generated.rs L129). -/
def rule_NIL : LexRule := ⟨K.NIL, seqs [.cls [(0x28, 0x28)], .star (.cls [(0x9, 0xA), (0xC, 0xD), (0x20, 0x20)]), .cls [(0x29, 0x29)]], false⟩

/-- `UNDEF` (syntax_kind/generated.rs L131). -/
def rule_UNDEF : LexRule := ⟨K.UNDEF, seqs [.cls [(0x55, 0x55), (0x75, 0x75)], .cls [(0x4E, 0x4E), (0x6E, 0x6E)], .cls [(0x44, 0x44), (0x64, 0x64)], .cls [(0x45, 0x45), (0x65, 0x65)], .cls [(0x46, 0x46), (0x66, 0x66)]], false⟩

/-- `MINUS` (syntax_kind/generated.rs L133). -/
def rule_MINUS : LexRule := ⟨K.MINUS, seqs [.cls [(0x4D, 0x4D), (0x6D, 0x6D)], .cls [(0x49, 0x49), (0x69, 0x69)], .cls [(0x4E, 0x4E), (0x6E, 0x6E)], .cls [(0x55, 0x55), (0x75, 0x75)], .cls [(0x53, 0x53), (0x73, 0x73)]], false⟩

/-- `UNION` (syntax_kind/generated.rs L135). -/
def rule_UNION : LexRule := ⟨K.UNION, seqs [.cls [(0x55, 0x55), (0x75, 0x75)], .cls [(0x4E, 0x4E), (0x6E, 0x6E)], .cls [(0x49, 0x49), (0x69, 0x69)], .cls [(0x4F, 0x4F), (0x6F, 0x6F)], .cls [(0x4E, 0x4E), (0x6E, 0x6E)]], false⟩

/-- `FILTER` (syntax_kind/generated.rs L137). -/
def rule_FILTER : LexRule := ⟨K.FILTER, seqs [.cls [(0x46, 0x46), (0x66, 0x66)], .cls [(0x49, 0x49), (0x69, 0x69)], .cls [(0x4C, 0x4C), (0x6C, 0x6C)], .cls [(0x54, 0x54), (0x74, 0x74)], .cls [(0x45, 0x45), (0x65, 0x65)], .cls [(0x52, 0x52), (0x72, 0x72)]], false⟩

/-- `Comma` (syntax_kind/generated.rs L139). -/
def rule_Comma : LexRule := ⟨K.Comma, .cls [(0x2C, 0x2C)], false⟩

/-- `a` (syntax_kind/generated.rs L141). -/
def rule_a : LexRule := ⟨K.a, .cls [(0x61, 0x61)], true⟩

/-- `Pipe` (syntax_kind/generated.rs L143). -/
def rule_Pipe : LexRule := ⟨K.Pipe, .cls [(0x7C, 0x7C)], false⟩

/-- `Slash` (syntax_kind/generated.rs L145). -/
def rule_Slash : LexRule := ⟨K.Slash, .cls [(0x2F, 0x2F)], false⟩

/-- `Zirkumflex` (syntax_kind/generated.rs L147). -/
def rule_Zirkumflex : LexRule := ⟨K.Zirkumflex, .cls [(0x5E, 0x5E)], false⟩

/-- `QuestionMark` (syntax_kind/generated.rs L149). -/
def rule_QuestionMark : LexRule := ⟨K.QuestionMark, .cls [(0x3F, 0x3F)], false⟩

/-- `Plus` (syntax_kind/generated.rs L151). -/
def rule_Plus : LexRule := ⟨K.Plus, .cls [(0x2B, 0x2B)], false⟩

/-- `ExclamationMark` (syntax_kind/generated.rs L153). -/
def rule_ExclamationMark : LexRule := ⟨K.ExclamationMark, .cls [(0x21, 0x21)], false⟩

/-- `LBrack` (syntax_kind/generated.rs L155). -/
def rule_LBrack : LexRule := ⟨K.LBrack, .cls [(0x5B, 0x5B)], false⟩

/-- `RBrack` (syntax_kind/generated.rs L157). -/
def rule_RBrack : LexRule := ⟨K.RBrack, .cls [(0x5D, 0x5D)], false⟩

/-- `VAR1` (syntax_kind/generated.rs L159-161). -/
def rule_VAR1 : LexRule := ⟨K.VAR1, seqs [.cls [(0x3F, 0x3F)], .cls [(0x30, 0x39), (0x41, 0x5A), (0x5F, 0x5F), (0x61, 0x7A), (0xC0, 0xD6), (0xD8, 0xF6), (0xF8, 0x2FF), (0x370, 0x37D), (0x37F, 0x1FFF), (0x200C, 0x200D), (0x2070, 0x218F), (0x2C00, 0x2FEF), (0x3001, 0xD7FF), (0xF900, 0xFDCF), (0xFDF0, 0xFFFD), (0x10000, 0xEFFFF)], .star (.cls [(0x30, 0x39), (0x41, 0x5A), (0x5F, 0x5F), (0x61, 0x7A), (0xB7, 0xB7), (0xC0, 0xD6), (0xD8, 0xF6), (0xF8, 0x37D), (0x37F, 0x1FFF), (0x200C, 0x200D), (0x203F, 0x2040), (0x2070, 0x218F), (0x2C00, 0x2FEF), (0x3001, 0xD7FF), (0xF900, 0xFDCF), (0xFDF0, 0xFFFD), (0x10000, 0xEFFFF)])], false⟩

/-- `VAR2` (syntax_kind/generated.rs L163-165). -/
def rule_VAR2 : LexRule := ⟨K.VAR2, seqs [.cls [(0x24, 0x24)], .cls [(0x30, 0x39), (0x41, 0x5A), (0x5F, 0x5F), (0x61, 0x7A), (0xC0, 0xD6), (0xD8, 0xF6), (0xF8, 0x2FF), (0x370, 0x37D), (0x37F, 0x1FFF), (0x200C, 0x200D), (0x2070, 0x218F), (0x2C00, 0x2FEF), (0x3001, 0xD7FF), (0xF900, 0xFDCF), (0xFDF0, 0xFFFD), (0x10000, 0xEFFFF)], .star (.cls [(0x30, 0x39), (0x41, 0x5A), (0x5F, 0x5F), (0x61, 0x7A), (0xB7, 0xB7), (0xC0, 0xD6), (0xD8, 0xF6), (0xF8, 0x37D), (0x37F, 0x1FFF), (0x200C, 0x200D), (0x203F, 0x2040), (0x2070, 0x218F), (0x2C00, 0x2FEF), (0x3001, 0xD7FF), (0xF900, 0xFDCF), (0xFDF0, 0xFFFD), (0x10000, 0xEFFFF)])], false⟩

/-- `LANG_DIR` (syntax_kind/generated.rs L167). -/
def rule_LANG_DIR : LexRule := ⟨K.LANG_DIR, seqs [.cls [(0x40, 0x40)], plus (.cls [(0x41, 0x5A), (0x61, 0x7A)]), .star (seqs [.cls [(0x2D, 0x2D)], plus (.cls [(0x30, 0x39), (0x41, 0x5A), (0x61, 0x7A)])]), opt (seqs [.cls [(0x2D, 0x2D)], .cls [(0x2D, 0x2D)], plus (.cls [(0x41, 0x5A), (0x61, 0x7A)])])], false⟩

/-- `DoublePipe` (syntax_kind/generated.rs L169). -/
def rule_DoublePipe : LexRule := ⟨K.DoublePipe, seqs [.cls [(0x7C, 0x7C)], .cls [(0x7C, 0x7C)]], false⟩

/-- `DoubleAnd` (syntax_kind/generated.rs L171). -/
def rule_DoubleAnd : LexRule := ⟨K.DoubleAnd, seqs [.cls [(0x26, 0x26)], .cls [(0x26, 0x26)]], false⟩

/-- `Equals` (syntax_kind/generated.rs L173). -/
def rule_Equals : LexRule := ⟨K.Equals, .cls [(0x3D, 0x3D)], false⟩

/-- `ExclamationMarkEquals` (syntax_kind/generated.rs L175). -/
def rule_ExclamationMarkEquals : LexRule := ⟨K.ExclamationMarkEquals, seqs [.cls [(0x21, 0x21)], .cls [(0x3D, 0x3D)]], false⟩

/-- `Less` (syntax_kind/generated.rs L177). -/
def rule_Less : LexRule := ⟨K.Less, .cls [(0x3C, 0x3C)], false⟩

/-- `More` (syntax_kind/generated.rs L179). -/
def rule_More : LexRule := ⟨K.More, .cls [(0x3E, 0x3E)], false⟩

/-- `LessEquals` (syntax_kind/generated.rs L181). -/
def rule_LessEquals : LexRule := ⟨K.LessEquals, seqs [.cls [(0x3C, 0x3C)], .cls [(0x3D, 0x3D)]], false⟩

/-- `MoreEquals` (syntax_kind/generated.rs L183). -/
def rule_MoreEquals : LexRule := ⟨K.MoreEquals, seqs [.cls [(0x3E, 0x3E)], .cls [(0x3D, 0x3D)]], false⟩

/-- `DoubleLess` (syntax_kind/generated.rs L185). -/
def rule_DoubleLess : LexRule := ⟨K.DoubleLess, seqs [.cls [(0x3C, 0x3C)], .cls [(0x3C, 0x3C)]], false⟩

/-- `DoubleLessLParen` (syntax_kind/generated.rs L187). -/
def rule_DoubleLessLParen : LexRule := ⟨K.DoubleLessLParen, seqs [.cls [(0x3C, 0x3C)], .cls [(0x3C, 0x3C)], .cls [(0x28, 0x28)]], false⟩

/-- `DoubleMore` (syntax_kind/generated.rs L189). -/
def rule_DoubleMore : LexRule := ⟨K.DoubleMore, seqs [.cls [(0x3E, 0x3E)], .cls [(0x3E, 0x3E)]], false⟩

/-- `RParenDoubleMore` (syntax_kind/generated.rs L191). -/
def rule_RParenDoubleMore : LexRule := ⟨K.RParenDoubleMore, seqs [.cls [(0x29, 0x29)], .cls [(0x3E, 0x3E)], .cls [(0x3E, 0x3E)]], false⟩

/-- `IN` (syntax_kind/generated.rs L193). -/
def rule_IN : LexRule := ⟨K.IN, seqs [.cls [(0x49, 0x49), (0x69, 0x69)], .cls [(0x4E, 0x4E), (0x6E, 0x6E)]], true⟩

/-- `NOT` (syntax_kind/generated.rs L195). -/
def rule_NOT : LexRule := ⟨K.NOT, seqs [.cls [(0x4E, 0x4E), (0x6E, 0x6E)], .cls [(0x4F, 0x4F), (0x6F, 0x6F)], .cls [(0x54, 0x54), (0x74, 0x74)]], false⟩

/-- `Minus` (syntax_kind/generated.rs L197). -/
def rule_Minus : LexRule := ⟨K.Minus, .cls [(0x2D, 0x2D)], false⟩

/-- `STR` (syntax_kind/generated.rs L199). -/
def rule_STR : LexRule := ⟨K.STR, seqs [.cls [(0x53, 0x53), (0x73, 0x73)], .cls [(0x54, 0x54), (0x74, 0x74)], .cls [(0x52, 0x52), (0x72, 0x72)]], false⟩

/-- `LANG` (syntax_kind/generated.rs L201). -/
def rule_LANG : LexRule := ⟨K.LANG, seqs [.cls [(0x4C, 0x4C), (0x6C, 0x6C)], .cls [(0x41, 0x41), (0x61, 0x61)], .cls [(0x4E, 0x4E), (0x6E, 0x6E)], .cls [(0x47, 0x47), (0x67, 0x67)]], false⟩

/-- `LANGMATCHES` (syntax_kind/generated.rs L203). -/
def rule_LANGMATCHES : LexRule := ⟨K.LANGMATCHES, seqs [.cls [(0x4C, 0x4C), (0x6C, 0x6C)], .cls [(0x41, 0x41), (0x61, 0x61)], .cls [(0x4E, 0x4E), (0x6E, 0x6E)], .cls [(0x47, 0x47), (0x67, 0x67)], .cls [(0x4D, 0x4D), (0x6D, 0x6D)], .cls [(0x41, 0x41), (0x61, 0x61)], .cls [(0x54, 0x54), (0x74, 0x74)], .cls [(0x43, 0x43), (0x63, 0x63)], .cls [(0x48, 0x48), (0x68, 0x68)], .cls [(0x45, 0x45), (0x65, 0x65)], .cls [(0x53, 0x53), (0x73, 0x73)]], false⟩

/-- `DATATYPE` (syntax_kind/generated.rs L205). -/
def rule_DATATYPE : LexRule := ⟨K.DATATYPE, seqs [.cls [(0x44, 0x44), (0x64, 0x64)], .cls [(0x41, 0x41), (0x61, 0x61)], .cls [(0x54, 0x54), (0x74, 0x74)], .cls [(0x41, 0x41), (0x61, 0x61)], .cls [(0x54, 0x54), (0x74, 0x74)], .cls [(0x59, 0x59), (0x79, 0x79)], .cls [(0x50, 0x50), (0x70, 0x70)], .cls [(0x45, 0x45), (0x65, 0x65)]], false⟩

/-- `BOUND` (syntax_kind/generated.rs L207). -/
def rule_BOUND : LexRule := ⟨K.BOUND, seqs [.cls [(0x42, 0x42), (0x62, 0x62)], .cls [(0x4F, 0x4F), (0x6F, 0x6F)], .cls [(0x55, 0x55), (0x75, 0x75)], .cls [(0x4E, 0x4E), (0x6E, 0x6E)], .cls [(0x44, 0x44), (0x64, 0x64)]], false⟩

/-- `IRI` (syntax_kind/generated.rs L209). -/
def rule_IRI : LexRule := ⟨K.IRI, seqs [.cls [(0x49, 0x49), (0x69, 0x69)], .cls [(0x52, 0x52), (0x72, 0x72)], .cls [(0x49, 0x49), (0x69, 0x69)]], false⟩

/-- `URI` (syntax_kind/generated.rs L211). -/
def rule_URI : LexRule := ⟨K.URI, seqs [.cls [(0x55, 0x55), (0x75, 0x75)], .cls [(0x52, 0x52), (0x72, 0x72)], .cls [(0x49, 0x49), (0x69, 0x69)]], false⟩

/-- `BNODE` (syntax_kind/generated.rs L213). -/
def rule_BNODE : LexRule := ⟨K.BNODE, seqs [.cls [(0x42, 0x42), (0x62, 0x62)], .cls [(0x4E, 0x4E), (0x6E, 0x6E)], .cls [(0x4F, 0x4F), (0x6F, 0x6F)], .cls [(0x44, 0x44), (0x64, 0x64)], .cls [(0x45, 0x45), (0x65, 0x65)]], false⟩

/-- `RAND` (syntax_kind/generated.rs L215). -/
def rule_RAND : LexRule := ⟨K.RAND, seqs [.cls [(0x52, 0x52), (0x72, 0x72)], .cls [(0x41, 0x41), (0x61, 0x61)], .cls [(0x4E, 0x4E), (0x6E, 0x6E)], .cls [(0x44, 0x44), (0x64, 0x64)]], false⟩

/-- `ABS` (syntax_kind/generated.rs L217). -/
def rule_ABS : LexRule := ⟨K.ABS, seqs [.cls [(0x41, 0x41), (0x61, 0x61)], .cls [(0x42, 0x42), (0x62, 0x62)], .cls [(0x53, 0x53), (0x73, 0x73)]], false⟩

/-- `CEIL` (syntax_kind/generated.rs L219). -/
def rule_CEIL : LexRule := ⟨K.CEIL, seqs [.cls [(0x43, 0x43), (0x63, 0x63)], .cls [(0x45, 0x45), (0x65, 0x65)], .cls [(0x49, 0x49), (0x69, 0x69)], .cls [(0x4C, 0x4C), (0x6C, 0x6C)]], false⟩

/-- `FLOOR` (syntax_kind/generated.rs L221). -/
def rule_FLOOR : LexRule := ⟨K.FLOOR, seqs [.cls [(0x46, 0x46), (0x66, 0x66)], .cls [(0x4C, 0x4C), (0x6C, 0x6C)], .cls [(0x4F, 0x4F), (0x6F, 0x6F)], .cls [(0x4F, 0x4F), (0x6F, 0x6F)], .cls [(0x52, 0x52), (0x72, 0x72)]], false⟩

/-- `ROUND` (syntax_kind/generated.rs L223). -/
def rule_ROUND : LexRule := ⟨K.ROUND, seqs [.cls [(0x52, 0x52), (0x72, 0x72)], .cls [(0x4F, 0x4F), (0x6F, 0x6F)], .cls [(0x55, 0x55), (0x75, 0x75)], .cls [(0x4E, 0x4E), (0x6E, 0x6E)], .cls [(0x44, 0x44), (0x64, 0x64)]], false⟩

/-- `CONCAT` (syntax_kind/generated.rs L225). -/
def rule_CONCAT : LexRule := ⟨K.CONCAT, seqs [.cls [(0x43, 0x43), (0x63, 0x63)], .cls [(0x4F, 0x4F), (0x6F, 0x6F)], .cls [(0x4E, 0x4E), (0x6E, 0x6E)], .cls [(0x43, 0x43), (0x63, 0x63)], .cls [(0x41, 0x41), (0x61, 0x61)], .cls [(0x54, 0x54), (0x74, 0x74)]], false⟩

/-- `STRLEN` (syntax_kind/generated.rs L227). -/
def rule_STRLEN : LexRule := ⟨K.STRLEN, seqs [.cls [(0x53, 0x53), (0x73, 0x73)], .cls [(0x54, 0x54), (0x74, 0x74)], .cls [(0x52, 0x52), (0x72, 0x72)], .cls [(0x4C, 0x4C), (0x6C, 0x6C)], .cls [(0x45, 0x45), (0x65, 0x65)], .cls [(0x4E, 0x4E), (0x6E, 0x6E)]], false⟩

/-- `UCASE` (syntax_kind/generated.rs L229). -/
def rule_UCASE : LexRule := ⟨K.UCASE, seqs [.cls [(0x55, 0x55), (0x75, 0x75)], .cls [(0x43, 0x43), (0x63, 0x63)], .cls [(0x41, 0x41), (0x61, 0x61)], .cls [(0x53, 0x53), (0x73, 0x73)], .cls [(0x45, 0x45), (0x65, 0x65)]], false⟩

/-- `LCASE` (syntax_kind/generated.rs L231). -/
def rule_LCASE : LexRule := ⟨K.LCASE, seqs [.cls [(0x4C, 0x4C), (0x6C, 0x6C)], .cls [(0x43, 0x43), (0x63, 0x63)], .cls [(0x41, 0x41), (0x61, 0x61)], .cls [(0x53, 0x53), (0x73, 0x73)], .cls [(0x45, 0x45), (0x65, 0x65)]], false⟩

/-- `ENCODE_FOR_URI` (syntax_kind/generated.rs L233). -/
def rule_ENCODE_FOR_URI : LexRule := ⟨K.ENCODE_FOR_URI, seqs [.cls [(0x45, 0x45), (0x65, 0x65)], .cls [(0x4E, 0x4E), (0x6E, 0x6E)], .cls [(0x43, 0x43), (0x63, 0x63)], .cls [(0x4F, 0x4F), (0x6F, 0x6F)], .cls [(0x44, 0x44), (0x64, 0x64)], .cls [(0x45, 0x45), (0x65, 0x65)], .cls [(0x5F, 0x5F)], .cls [(0x46, 0x46), (0x66, 0x66)], .cls [(0x4F, 0x4F), (0x6F, 0x6F)], .cls [(0x52, 0x52), (0x72, 0x72)], .cls [(0x5F, 0x5F)], .cls [(0x55, 0x55), (0x75, 0x75)], .cls [(0x52, 0x52), (0x72, 0x72)], .cls [(0x49, 0x49), (0x69, 0x69)]], false⟩

/-- `CONTAINS` (syntax_kind/generated.rs L235). -/
def rule_CONTAINS : LexRule := ⟨K.CONTAINS, seqs [.cls [(0x43, 0x43), (0x63, 0x63)], .cls [(0x4F, 0x4F), (0x6F, 0x6F)], .cls [(0x4E, 0x4E), (0x6E, 0x6E)], .cls [(0x54, 0x54), (0x74, 0x74)], .cls [(0x41, 0x41), (0x61, 0x61)], .cls [(0x49, 0x49), (0x69, 0x69)], .cls [(0x4E, 0x4E), (0x6E, 0x6E)], .cls [(0x53, 0x53), (0x73, 0x73)]], false⟩

/-- `STRSTARTS` (syntax_kind/generated.rs L237). -/
def rule_STRSTARTS : LexRule := ⟨K.STRSTARTS, seqs [.cls [(0x53, 0x53), (0x73, 0x73)], .cls [(0x54, 0x54), (0x74, 0x74)], .cls [(0x52, 0x52), (0x72, 0x72)], .cls [(0x53, 0x53), (0x73, 0x73)], .cls [(0x54, 0x54), (0x74, 0x74)], .cls [(0x41, 0x41), (0x61, 0x61)], .cls [(0x52, 0x52), (0x72, 0x72)], .cls [(0x54, 0x54), (0x74, 0x74)], .cls [(0x53, 0x53), (0x73, 0x73)]], false⟩

/-- `STRENDS` (syntax_kind/generated.rs L239). -/
def rule_STRENDS : LexRule := ⟨K.STRENDS, seqs [.cls [(0x53, 0x53), (0x73, 0x73)], .cls [(0x54, 0x54), (0x74, 0x74)], .cls [(0x52, 0x52), (0x72, 0x72)], .cls [(0x45, 0x45), (0x65, 0x65)], .cls [(0x4E, 0x4E), (0x6E, 0x6E)], .cls [(0x44, 0x44), (0x64, 0x64)], .cls [(0x53, 0x53), (0x73, 0x73)]], false⟩

/-- `STRBEFORE` (syntax_kind/generated.rs L241). -/
def rule_STRBEFORE : LexRule := ⟨K.STRBEFORE, seqs [.cls [(0x53, 0x53), (0x73, 0x73)], .cls [(0x54, 0x54), (0x74, 0x74)], .cls [(0x52, 0x52), (0x72, 0x72)], .cls [(0x42, 0x42), (0x62, 0x62)], .cls [(0x45, 0x45), (0x65, 0x65)], .cls [(0x46, 0x46), (0x66, 0x66)], .cls [(0x4F, 0x4F), (0x6F, 0x6F)], .cls [(0x52, 0x52), (0x72, 0x72)], .cls [(0x45, 0x45), (0x65, 0x65)]], false⟩

/-- `STRAFTER` (syntax_kind/generated.rs L243). -/
def rule_STRAFTER : LexRule := ⟨K.STRAFTER, seqs [.cls [(0x53, 0x53), (0x73, 0x73)], .cls [(0x54, 0x54), (0x74, 0x74)], .cls [(0x52, 0x52), (0x72, 0x72)], .cls [(0x41, 0x41), (0x61, 0x61)], .cls [(0x46, 0x46), (0x66, 0x66)], .cls [(0x54, 0x54), (0x74, 0x74)], .cls [(0x45, 0x45), (0x65, 0x65)], .cls [(0x52, 0x52), (0x72, 0x72)]], false⟩

/-- `YEAR` (syntax_kind/generated.rs L245). -/
def rule_YEAR : LexRule := ⟨K.YEAR, seqs [.cls [(0x59, 0x59), (0x79, 0x79)], .cls [(0x45, 0x45), (0x65, 0x65)], .cls [(0x41, 0x41), (0x61, 0x61)], .cls [(0x52, 0x52), (0x72, 0x72)]], false⟩

/-- `MONTH` (syntax_kind/generated.rs L247). -/
def rule_MONTH : LexRule := ⟨K.MONTH, seqs [.cls [(0x4D, 0x4D), (0x6D, 0x6D)], .cls [(0x4F, 0x4F), (0x6F, 0x6F)], .cls [(0x4E, 0x4E), (0x6E, 0x6E)], .cls [(0x54, 0x54), (0x74, 0x74)], .cls [(0x48, 0x48), (0x68, 0x68)]], false⟩

/-- `DAY` (syntax_kind/generated.rs L249). -/
def rule_DAY : LexRule := ⟨K.DAY, seqs [.cls [(0x44, 0x44), (0x64, 0x64)], .cls [(0x41, 0x41), (0x61, 0x61)], .cls [(0x59, 0x59), (0x79, 0x79)]], false⟩

/-- `HOURS` (syntax_kind/generated.rs L251). -/
def rule_HOURS : LexRule := ⟨K.HOURS, seqs [.cls [(0x48, 0x48), (0x68, 0x68)], .cls [(0x4F, 0x4F), (0x6F, 0x6F)], .cls [(0x55, 0x55), (0x75, 0x75)], .cls [(0x52, 0x52), (0x72, 0x72)], .cls [(0x53, 0x53), (0x73, 0x73)]], false⟩

/-- `MINUTES` (syntax_kind/generated.rs L253). -/
def rule_MINUTES : LexRule := ⟨K.MINUTES, seqs [.cls [(0x4D, 0x4D), (0x6D, 0x6D)], .cls [(0x49, 0x49), (0x69, 0x69)], .cls [(0x4E, 0x4E), (0x6E, 0x6E)], .cls [(0x55, 0x55), (0x75, 0x75)], .cls [(0x54, 0x54), (0x74, 0x74)], .cls [(0x45, 0x45), (0x65, 0x65)], .cls [(0x53, 0x53), (0x73, 0x73)]], false⟩

/-- `SECONDS` (syntax_kind/generated.rs L255). -/
def rule_SECONDS : LexRule := ⟨K.SECONDS, seqs [.cls [(0x53, 0x53), (0x73, 0x73)], .cls [(0x45, 0x45), (0x65, 0x65)], .cls [(0x43, 0x43), (0x63, 0x63)], .cls [(0x4F, 0x4F), (0x6F, 0x6F)], .cls [(0x4E, 0x4E), (0x6E, 0x6E)], .cls [(0x44, 0x44), (0x64, 0x64)], .cls [(0x53, 0x53), (0x73, 0x73)]], false⟩

/-- `TIMEZONE` (syntax_kind/generated.rs L257). -/
def rule_TIMEZONE : LexRule := ⟨K.TIMEZONE, seqs [.cls [(0x54, 0x54), (0x74, 0x74)], .cls [(0x49, 0x49), (0x69, 0x69)], .cls [(0x4D, 0x4D), (0x6D, 0x6D)], .cls [(0x45, 0x45), (0x65, 0x65)], .cls [(0x5A, 0x5A), (0x7A, 0x7A)], .cls [(0x4F, 0x4F), (0x6F, 0x6F)], .cls [(0x4E, 0x4E), (0x6E, 0x6E)], .cls [(0x45, 0x45), (0x65, 0x65)]], false⟩

/-- `TZ` (syntax_kind/generated.rs L259). -/
def rule_TZ : LexRule := ⟨K.TZ, seqs [.cls [(0x54, 0x54), (0x74, 0x74)], .cls [(0x5A, 0x5A), (0x7A, 0x7A)]], false⟩

/-- `NOW` (syntax_kind/generated.rs L261). -/
def rule_NOW : LexRule := ⟨K.NOW, seqs [.cls [(0x4E, 0x4E), (0x6E, 0x6E)], .cls [(0x4F, 0x4F), (0x6F, 0x6F)], .cls [(0x57, 0x57), (0x77, 0x77)]], false⟩

/-- `UUID` (syntax_kind/generated.rs L263). -/
def rule_UUID : LexRule := ⟨K.UUID, seqs [.cls [(0x55, 0x55), (0x75, 0x75)], .cls [(0x55, 0x55), (0x75, 0x75)], .cls [(0x49, 0x49), (0x69, 0x69)], .cls [(0x44, 0x44), (0x64, 0x64)]], false⟩

/-- `STRUUID` (syntax_kind/generated.rs L265). -/
def rule_STRUUID : LexRule := ⟨K.STRUUID, seqs [.cls [(0x53, 0x53), (0x73, 0x73)], .cls [(0x54, 0x54), (0x74, 0x74)], .cls [(0x52, 0x52), (0x72, 0x72)], .cls [(0x55, 0x55), (0x75, 0x75)], .cls [(0x55, 0x55), (0x75, 0x75)], .cls [(0x49, 0x49), (0x69, 0x69)], .cls [(0x44, 0x44), (0x64, 0x64)]], false⟩

/-- `MD5` (syntax_kind/generated.rs L267). -/
def rule_MD5 : LexRule := ⟨K.MD5, seqs [.cls [(0x4D, 0x4D), (0x6D, 0x6D)], .cls [(0x44, 0x44), (0x64, 0x64)], .cls [(0x35, 0x35)]], false⟩

/-- `SHA1` (syntax_kind/generated.rs L269). -/
def rule_SHA1 : LexRule := ⟨K.SHA1, seqs [.cls [(0x53, 0x53), (0x73, 0x73)], .cls [(0x48, 0x48), (0x68, 0x68)], .cls [(0x41, 0x41), (0x61, 0x61)], .cls [(0x31, 0x31)]], false⟩

/-- `SHA256` (syntax_kind/generated.rs L271). -/
def rule_SHA256 : LexRule := ⟨K.SHA256, seqs [.cls [(0x53, 0x53), (0x73, 0x73)], .cls [(0x48, 0x48), (0x68, 0x68)], .cls [(0x41, 0x41), (0x61, 0x61)], .cls [(0x32, 0x32)], .cls [(0x35, 0x35)], .cls [(0x36, 0x36)]], false⟩

/-- `SHA384` (syntax_kind/generated.rs L273). -/
def rule_SHA384 : LexRule := ⟨K.SHA384, seqs [.cls [(0x53, 0x53), (0x73, 0x73)], .cls [(0x48, 0x48), (0x68, 0x68)], .cls [(0x41, 0x41), (0x61, 0x61)], .cls [(0x33, 0x33)], .cls [(0x38, 0x38)], .cls [(0x34, 0x34)]], false⟩

/-- `SHA512` (syntax_kind/generated.rs L275). -/
def rule_SHA512 : LexRule := ⟨K.SHA512, seqs [.cls [(0x53, 0x53), (0x73, 0x73)], .cls [(0x48, 0x48), (0x68, 0x68)], .cls [(0x41, 0x41), (0x61, 0x61)], .cls [(0x35, 0x35)], .cls [(0x31, 0x31)], .cls [(0x32, 0x32)]], false⟩

/-- `COALESCE` (syntax_kind/generated.rs L277). -/
def rule_COALESCE : LexRule := ⟨K.COALESCE, seqs [.cls [(0x43, 0x43), (0x63, 0x63)], .cls [(0x4F, 0x4F), (0x6F, 0x6F)], .cls [(0x41, 0x41), (0x61, 0x61)], .cls [(0x4C, 0x4C), (0x6C, 0x6C)], .cls [(0x45, 0x45), (0x65, 0x65)], .cls [(0x53, 0x53), (0x73, 0x73)], .cls [(0x43, 0x43), (0x63, 0x63)], .cls [(0x45, 0x45), (0x65, 0x65)]], false⟩

/-- `IF` (syntax_kind/generated.rs L279). -/
def rule_IF : LexRule := ⟨K.IF, seqs [.cls [(0x49, 0x49), (0x69, 0x69)], .cls [(0x46, 0x46), (0x66, 0x66)]], false⟩

/-- `STRLANG` (syntax_kind/generated.rs L281). -/
def rule_STRLANG : LexRule := ⟨K.STRLANG, seqs [.cls [(0x53, 0x53), (0x73, 0x73)], .cls [(0x54, 0x54), (0x74, 0x74)], .cls [(0x52, 0x52), (0x72, 0x72)], .cls [(0x4C, 0x4C), (0x6C, 0x6C)], .cls [(0x41, 0x41), (0x61, 0x61)], .cls [(0x4E, 0x4E), (0x6E, 0x6E)], .cls [(0x47, 0x47), (0x67, 0x67)]], false⟩

/-- `STRDT` (syntax_kind/generated.rs L283). -/
def rule_STRDT : LexRule := ⟨K.STRDT, seqs [.cls [(0x53, 0x53), (0x73, 0x73)], .cls [(0x54, 0x54), (0x74, 0x74)], .cls [(0x52, 0x52), (0x72, 0x72)], .cls [(0x44, 0x44), (0x64, 0x64)], .cls [(0x54, 0x54), (0x74, 0x74)]], false⟩

/-- `sameTerm` (syntax_kind/generated.rs L285). -/
def rule_sameTerm : LexRule := ⟨K.sameTerm, seqs [.cls [(0x53, 0x53), (0x73, 0x73)], .cls [(0x41, 0x41), (0x61, 0x61)], .cls [(0x4D, 0x4D), (0x6D, 0x6D)], .cls [(0x45, 0x45), (0x65, 0x65)], .cls [(0x54, 0x54), (0x74, 0x74)], .cls [(0x45, 0x45), (0x65, 0x65)], .cls [(0x52, 0x52), (0x72, 0x72)], .cls [(0x4D, 0x4D), (0x6D, 0x6D)]], false⟩

/-- `isIRI` (syntax_kind/generated.rs L287). -/
def rule_isIRI : LexRule := ⟨K.isIRI, seqs [.cls [(0x49, 0x49), (0x69, 0x69)], .cls [(0x53, 0x53), (0x73, 0x73)], .cls [(0x49, 0x49), (0x69, 0x69)], .cls [(0x52, 0x52), (0x72, 0x72)], .cls [(0x49, 0x49), (0x69, 0x69)]], false⟩

/-- `isURI` (syntax_kind/generated.rs L289). -/
def rule_isURI : LexRule := ⟨K.isURI, seqs [.cls [(0x49, 0x49), (0x69, 0x69)], .cls [(0x53, 0x53), (0x73, 0x73)], .cls [(0x55, 0x55), (0x75, 0x75)], .cls [(0x52, 0x52), (0x72, 0x72)], .cls [(0x49, 0x49), (0x69, 0x69)]], false⟩

/-- `isBLANK` (syntax_kind/generated.rs L291). -/
def rule_isBLANK : LexRule := ⟨K.isBLANK, seqs [.cls [(0x49, 0x49), (0x69, 0x69)], .cls [(0x53, 0x53), (0x73, 0x73)], .cls [(0x42, 0x42), (0x62, 0x62)], .cls [(0x4C, 0x4C), (0x6C, 0x6C)], .cls [(0x41, 0x41), (0x61, 0x61)], .cls [(0x4E, 0x4E), (0x6E, 0x6E)], .cls [(0x4B, 0x4B), (0x6B, 0x6B)]], false⟩

/-- `isLITERAL` (syntax_kind/generated.rs L293). -/
def rule_isLITERAL : LexRule := ⟨K.isLITERAL, seqs [.cls [(0x49, 0x49), (0x69, 0x69)], .cls [(0x53, 0x53), (0x73, 0x73)], .cls [(0x4C, 0x4C), (0x6C, 0x6C)], .cls [(0x49, 0x49), (0x69, 0x69)], .cls [(0x54, 0x54), (0x74, 0x74)], .cls [(0x45, 0x45), (0x65, 0x65)], .cls [(0x52, 0x52), (0x72, 0x72)], .cls [(0x41, 0x41), (0x61, 0x61)], .cls [(0x4C, 0x4C), (0x6C, 0x6C)]], false⟩

/-- `isNUMERIC` (syntax_kind/generated.rs L295). -/
def rule_isNUMERIC : LexRule := ⟨K.isNUMERIC, seqs [.cls [(0x49, 0x49), (0x69, 0x69)], .cls [(0x53, 0x53), (0x73, 0x73)], .cls [(0x4E, 0x4E), (0x6E, 0x6E)], .cls [(0x55, 0x55), (0x75, 0x75)], .cls [(0x4D, 0x4D), (0x6D, 0x6D)], .cls [(0x45, 0x45), (0x65, 0x65)], .cls [(0x52, 0x52), (0x72, 0x72)], .cls [(0x49, 0x49), (0x69, 0x69)], .cls [(0x43, 0x43), (0x63, 0x63)]], false⟩

/-- `REGEX` (syntax_kind/generated.rs L297). -/
def rule_REGEX : LexRule := ⟨K.REGEX, seqs [.cls [(0x52, 0x52), (0x72, 0x72)], .cls [(0x45, 0x45), (0x65, 0x65)], .cls [(0x47, 0x47), (0x67, 0x67)], .cls [(0x45, 0x45), (0x65, 0x65)], .cls [(0x58, 0x58), (0x78, 0x78)]], false⟩

/-- `SUBSTR` (syntax_kind/generated.rs L299). -/
def rule_SUBSTR : LexRule := ⟨K.SUBSTR, seqs [.cls [(0x53, 0x53), (0x73, 0x73)], .cls [(0x55, 0x55), (0x75, 0x75)], .cls [(0x42, 0x42), (0x62, 0x62)], .cls [(0x53, 0x53), (0x73, 0x73)], .cls [(0x54, 0x54), (0x74, 0x74)], .cls [(0x52, 0x52), (0x72, 0x72)]], false⟩

/-- `REPLACE` (syntax_kind/generated.rs L301). -/
def rule_REPLACE : LexRule := ⟨K.REPLACE, seqs [.cls [(0x52, 0x52), (0x72, 0x72)], .cls [(0x45, 0x45), (0x65, 0x65)], .cls [(0x50, 0x50), (0x70, 0x70)], .cls [(0x4C, 0x4C), (0x6C, 0x6C)], .cls [(0x41, 0x41), (0x61, 0x61)], .cls [(0x43, 0x43), (0x63, 0x63)], .cls [(0x45, 0x45), (0x65, 0x65)]], false⟩

/-- `EXISTS` (syntax_kind/generated.rs L303). -/
def rule_EXISTS : LexRule := ⟨K.EXISTS, seqs [.cls [(0x45, 0x45), (0x65, 0x65)], .cls [(0x58, 0x58), (0x78, 0x78)], .cls [(0x49, 0x49), (0x69, 0x69)], .cls [(0x53, 0x53), (0x73, 0x73)], .cls [(0x54, 0x54), (0x74, 0x74)], .cls [(0x53, 0x53), (0x73, 0x73)]], false⟩

/-- `COUNT` (syntax_kind/generated.rs L305). -/
def rule_COUNT : LexRule := ⟨K.COUNT, seqs [.cls [(0x43, 0x43), (0x63, 0x63)], .cls [(0x4F, 0x4F), (0x6F, 0x6F)], .cls [(0x55, 0x55), (0x75, 0x75)], .cls [(0x4E, 0x4E), (0x6E, 0x6E)], .cls [(0x54, 0x54), (0x74, 0x74)]], false⟩

/-- `SUM` (syntax_kind/generated.rs L307). -/
def rule_SUM : LexRule := ⟨K.SUM, seqs [.cls [(0x53, 0x53), (0x73, 0x73)], .cls [(0x55, 0x55), (0x75, 0x75)], .cls [(0x4D, 0x4D), (0x6D, 0x6D)]], false⟩

/-- `MIN` (syntax_kind/generated.rs L309). -/
def rule_MIN : LexRule := ⟨K.MIN, seqs [.cls [(0x4D, 0x4D), (0x6D, 0x6D)], .cls [(0x49, 0x49), (0x69, 0x69)], .cls [(0x4E, 0x4E), (0x6E, 0x6E)]], false⟩

/-- `MAX` (syntax_kind/generated.rs L311). -/
def rule_MAX : LexRule := ⟨K.MAX, seqs [.cls [(0x4D, 0x4D), (0x6D, 0x6D)], .cls [(0x41, 0x41), (0x61, 0x61)], .cls [(0x58, 0x58), (0x78, 0x78)]], false⟩

/-- `AVG` (syntax_kind/generated.rs L313). -/
def rule_AVG : LexRule := ⟨K.AVG, seqs [.cls [(0x41, 0x41), (0x61, 0x61)], .cls [(0x56, 0x56), (0x76, 0x76)], .cls [(0x47, 0x47), (0x67, 0x67)]], false⟩

/-- `SAMPLE` (syntax_kind/generated.rs L315). -/
def rule_SAMPLE : LexRule := ⟨K.SAMPLE, seqs [.cls [(0x53, 0x53), (0x73, 0x73)], .cls [(0x41, 0x41), (0x61, 0x61)], .cls [(0x4D, 0x4D), (0x6D, 0x6D)], .cls [(0x50, 0x50), (0x70, 0x70)], .cls [(0x4C, 0x4C), (0x6C, 0x6C)], .cls [(0x45, 0x45), (0x65, 0x65)]], false⟩

/-- `GROUP_CONCAT` (syntax_kind/generated.rs L317). -/
def rule_GROUP_CONCAT : LexRule := ⟨K.GROUP_CONCAT, seqs [.cls [(0x47, 0x47), (0x67, 0x67)], .cls [(0x52, 0x52), (0x72, 0x72)], .cls [(0x4F, 0x4F), (0x6F, 0x6F)], .cls [(0x55, 0x55), (0x75, 0x75)], .cls [(0x50, 0x50), (0x70, 0x70)], .cls [(0x5F, 0x5F)], .cls [(0x43, 0x43), (0x63, 0x63)], .cls [(0x4F, 0x4F), (0x6F, 0x6F)], .cls [(0x4E, 0x4E), (0x6E, 0x6E)], .cls [(0x43, 0x43), (0x63, 0x63)], .cls [(0x41, 0x41), (0x61, 0x61)], .cls [(0x54, 0x54), (0x74, 0x74)]], false⟩

/-- `SEPARATOR` (syntax_kind/generated.rs L319). -/
def rule_SEPARATOR : LexRule := ⟨K.SEPARATOR, seqs [.cls [(0x53, 0x53), (0x73, 0x73)], .cls [(0x45, 0x45), (0x65, 0x65)], .cls [(0x50, 0x50), (0x70, 0x70)], .cls [(0x41, 0x41), (0x61, 0x61)], .cls [(0x52, 0x52), (0x72, 0x72)], .cls [(0x41, 0x41), (0x61, 0x61)], .cls [(0x54, 0x54), (0x74, 0x74)], .cls [(0x4F, 0x4F), (0x6F, 0x6F)], .cls [(0x52, 0x52), (0x72, 0x72)]], false⟩

/-- `VERSION` (syntax_kind/generated.rs L321). -/
def rule_VERSION : LexRule := ⟨K.VERSION, seqs [.cls [(0x56, 0x56), (0x76, 0x76)], .cls [(0x45, 0x45), (0x65, 0x65)], .cls [(0x52, 0x52), (0x72, 0x72)], .cls [(0x53, 0x53), (0x73, 0x73)], .cls [(0x49, 0x49), (0x69, 0x69)], .cls [(0x4F, 0x4F), (0x6F, 0x6F)], .cls [(0x4E, 0x4E), (0x6E, 0x6E)]], false⟩

/-- `STRLANGDIR` (syntax_kind/generated.rs L323). -/
def rule_STRLANGDIR : LexRule := ⟨K.STRLANGDIR, seqs [.cls [(0x53, 0x53), (0x73, 0x73)], .cls [(0x54, 0x54), (0x74, 0x74)], .cls [(0x52, 0x52), (0x72, 0x72)], .cls [(0x4C, 0x4C), (0x6C, 0x6C)], .cls [(0x41, 0x41), (0x61, 0x61)], .cls [(0x4E, 0x4E), (0x6E, 0x6E)], .cls [(0x47, 0x47), (0x67, 0x67)], .cls [(0x44, 0x44), (0x64, 0x64)], .cls [(0x49, 0x49), (0x69, 0x69)], .cls [(0x52, 0x52), (0x72, 0x72)]], false⟩

/-- `hasLANG` (syntax_kind/generated.rs L325). -/
def rule_hasLANG : LexRule := ⟨K.hasLANG, seqs [.cls [(0x48, 0x48), (0x68, 0x68)], .cls [(0x41, 0x41), (0x61, 0x61)], .cls [(0x53, 0x53), (0x73, 0x73)], .cls [(0x4C, 0x4C), (0x6C, 0x6C)], .cls [(0x41, 0x41), (0x61, 0x61)], .cls [(0x4E, 0x4E), (0x6E, 0x6E)], .cls [(0x47, 0x47), (0x67, 0x67)]], false⟩

/-- `hasLANGDIR` (syntax_kind/generated.rs L327). -/
def rule_hasLANGDIR : LexRule := ⟨K.hasLANGDIR, seqs [.cls [(0x48, 0x48), (0x68, 0x68)], .cls [(0x41, 0x41), (0x61, 0x61)], .cls [(0x53, 0x53), (0x73, 0x73)], .cls [(0x4C, 0x4C), (0x6C, 0x6C)], .cls [(0x41, 0x41), (0x61, 0x61)], .cls [(0x4E, 0x4E), (0x6E, 0x6E)], .cls [(0x47, 0x47), (0x67, 0x67)], .cls [(0x44, 0x44), (0x64, 0x64)], .cls [(0x49, 0x49), (0x69, 0x69)], .cls [(0x52, 0x52), (0x72, 0x72)]], false⟩

/-- `isTRIPLE` (syntax_kind/generated.rs L329). -/
def rule_isTRIPLE : LexRule := ⟨K.isTRIPLE, seqs [.cls [(0x49, 0x49), (0x69, 0x69)], .cls [(0x53, 0x53), (0x73, 0x73)], .cls [(0x54, 0x54), (0x74, 0x74)], .cls [(0x52, 0x52), (0x72, 0x72)], .cls [(0x49, 0x49), (0x69, 0x69)], .cls [(0x50, 0x50), (0x70, 0x70)], .cls [(0x4C, 0x4C), (0x6C, 0x6C)], .cls [(0x45, 0x45), (0x65, 0x65)]], false⟩

/-- `TRIPLE` (syntax_kind/generated.rs L331). -/
def rule_TRIPLE : LexRule := ⟨K.TRIPLE, seqs [.cls [(0x54, 0x54), (0x74, 0x74)], .cls [(0x52, 0x52), (0x72, 0x72)], .cls [(0x49, 0x49), (0x69, 0x69)], .cls [(0x50, 0x50), (0x70, 0x70)], .cls [(0x4C, 0x4C), (0x6C, 0x6C)], .cls [(0x45, 0x45), (0x65, 0x65)]], false⟩

/-- `SUBJECT` (syntax_kind/generated.rs L333). -/
def rule_SUBJECT : LexRule := ⟨K.SUBJECT, seqs [.cls [(0x53, 0x53), (0x73, 0x73)], .cls [(0x55, 0x55), (0x75, 0x75)], .cls [(0x42, 0x42), (0x62, 0x62)], .cls [(0x4A, 0x4A), (0x6A, 0x6A)], .cls [(0x45, 0x45), (0x65, 0x65)], .cls [(0x43, 0x43), (0x63, 0x63)], .cls [(0x54, 0x54), (0x74, 0x74)]], false⟩

/-- `PREDICATE` (syntax_kind/generated.rs L335). -/
def rule_PREDICATE : LexRule := ⟨K.PREDICATE, seqs [.cls [(0x50, 0x50), (0x70, 0x70)], .cls [(0x52, 0x52), (0x72, 0x72)], .cls [(0x45, 0x45), (0x65, 0x65)], .cls [(0x44, 0x44), (0x64, 0x64)], .cls [(0x49, 0x49), (0x69, 0x69)], .cls [(0x43, 0x43), (0x63, 0x63)], .cls [(0x41, 0x41), (0x61, 0x61)], .cls [(0x54, 0x54), (0x74, 0x74)], .cls [(0x45, 0x45), (0x65, 0x65)]], false⟩

/-- `OBJECT` (syntax_kind/generated.rs L337). -/
def rule_OBJECT : LexRule := ⟨K.OBJECT, seqs [.cls [(0x4F, 0x4F), (0x6F, 0x6F)], .cls [(0x42, 0x42), (0x62, 0x62)], .cls [(0x4A, 0x4A), (0x6A, 0x6A)], .cls [(0x45, 0x45), (0x65, 0x65)], .cls [(0x43, 0x43), (0x63, 0x63)], .cls [(0x54, 0x54), (0x74, 0x74)]], false⟩

/-- `LANGDIR` (syntax_kind/generated.rs L339). -/
def rule_LANGDIR : LexRule := ⟨K.LANGDIR, seqs [.cls [(0x4C, 0x4C), (0x6C, 0x6C)], .cls [(0x41, 0x41), (0x61, 0x61)], .cls [(0x4E, 0x4E), (0x6E, 0x6E)], .cls [(0x47, 0x47), (0x67, 0x67)], .cls [(0x44, 0x44), (0x64, 0x64)], .cls [(0x49, 0x49), (0x69, 0x69)], .cls [(0x52, 0x52), (0x72, 0x72)]], false⟩

/-- `DoubleZirkumflex` (syntax_kind/generated.rs L341). -/
def rule_DoubleZirkumflex : LexRule := ⟨K.DoubleZirkumflex, seqs [.cls [(0x5E, 0x5E)], .cls [(0x5E, 0x5E)]], false⟩

/-- `INTEGER` (syntax_kind/generated.rs L343). -/
def rule_INTEGER : LexRule := ⟨K.INTEGER, plus (.cls digit), false⟩

/-- `DECIMAL` (syntax_kind/generated.rs L345). -/
def rule_DECIMAL : LexRule := ⟨K.DECIMAL, seqs [.star (.cls digit), .cls [(0x2E, 0x2E)], plus (.cls digit)], false⟩

/-- `DOUBLE` (syntax_kind/generated.rs L347). -/
def rule_DOUBLE : LexRule := ⟨K.DOUBLE, alts [seqs [plus (.cls digit), .cls [(0x2E, 0x2E)], .star (.cls digit), seqs [.cls [(0x45, 0x45), (0x65, 0x65)], opt (.cls [(0x2B, 0x2B), (0x2D, 0x2D)]), plus (.cls digit)]], seqs [.cls [(0x2E, 0x2E)], plus (.cls digit), seqs [.cls [(0x45, 0x45), (0x65, 0x65)], opt (.cls [(0x2B, 0x2B), (0x2D, 0x2D)]), plus (.cls digit)]], seqs [plus (.cls digit), seqs [.cls [(0x45, 0x45), (0x65, 0x65)], opt (.cls [(0x2B, 0x2B), (0x2D, 0x2D)]), plus (.cls digit)]]], false⟩

/-- `INTEGER_POSITIVE` (syntax_kind/generated.rs L349). -/
def rule_INTEGER_POSITIVE : LexRule := ⟨K.INTEGER_POSITIVE, seqs [.cls [(0x2B, 0x2B)], plus (.cls digit)], false⟩

/-- `DECIMAL_POSITIVE` (syntax_kind/generated.rs L351). -/
def rule_DECIMAL_POSITIVE : LexRule := ⟨K.DECIMAL_POSITIVE, seqs [.cls [(0x2B, 0x2B)], .star (.cls digit), .cls [(0x2E, 0x2E)], plus (.cls digit)], false⟩

/-- `DOUBLE_POSITIVE` (syntax_kind/generated.rs L353). -/
def rule_DOUBLE_POSITIVE : LexRule := ⟨K.DOUBLE_POSITIVE, alts [seqs [.cls [(0x2B, 0x2B)], seqs [plus (.cls digit), .cls [(0x2E, 0x2E)], .star (.cls digit), seqs [.cls [(0x45, 0x45), (0x65, 0x65)], opt (.cls [(0x2B, 0x2B), (0x2D, 0x2D)]), plus (.cls digit)]]], seqs [.cls [(0x2B, 0x2B)], seqs [.cls [(0x2E, 0x2E)], plus (.cls digit), seqs [.cls [(0x45, 0x45), (0x65, 0x65)], opt (.cls [(0x2B, 0x2B), (0x2D, 0x2D)]), plus (.cls digit)]]], seqs [.cls [(0x2B, 0x2B)], seqs [plus (.cls digit), seqs [.cls [(0x45, 0x45), (0x65, 0x65)], opt (.cls [(0x2B, 0x2B), (0x2D, 0x2D)]), plus (.cls digit)]]]], false⟩

/-- `INTEGER_NEGATIVE` (syntax_kind/generated.rs L355). -/
def rule_INTEGER_NEGATIVE : LexRule := ⟨K.INTEGER_NEGATIVE, seqs [.cls [(0x2D, 0x2D)], plus (.cls digit)], false⟩

/-- `DECIMAL_NEGATIVE` (syntax_kind/generated.rs L357). -/
def rule_DECIMAL_NEGATIVE : LexRule := ⟨K.DECIMAL_NEGATIVE, seqs [.cls [(0x2D, 0x2D)], .star (.cls digit), .cls [(0x2E, 0x2E)], plus (.cls digit)], false⟩

/-- `DOUBLE_NEGATIVE` (syntax_kind/generated.rs L359). -/
def rule_DOUBLE_NEGATIVE : LexRule := ⟨K.DOUBLE_NEGATIVE, alts [seqs [.cls [(0x2D, 0x2D)], seqs [plus (.cls digit), .cls [(0x2E, 0x2E)], .star (.cls digit), seqs [.cls [(0x45, 0x45), (0x65, 0x65)], opt (.cls [(0x2B, 0x2B), (0x2D, 0x2D)]), plus (.cls digit)]]], seqs [.cls [(0x2D, 0x2D)], seqs [.cls [(0x2E, 0x2E)], plus (.cls digit), seqs [.cls [(0x45, 0x45), (0x65, 0x65)], opt (.cls [(0x2B, 0x2B), (0x2D, 0x2D)]), plus (.cls digit)]]], seqs [.cls [(0x2D, 0x2D)], seqs [plus (.cls digit), seqs [.cls [(0x45, 0x45), (0x65, 0x65)], opt (.cls [(0x2B, 0x2B), (0x2D, 0x2D)]), plus (.cls digit)]]]], false⟩

/-- `True` (syntax_kind/generated.rs L361). -/
def rule_True : LexRule := ⟨K.True, seqs [.cls [(0x74, 0x74)], .cls [(0x72, 0x72)], .cls [(0x75, 0x75)], .cls [(0x65, 0x65)]], false⟩

/-- `False` (syntax_kind/generated.rs L363). -/
def rule_False : LexRule := ⟨K.False, seqs [.cls [(0x66, 0x66)], .cls [(0x61, 0x61)], .cls [(0x6C, 0x6C)], .cls [(0x73, 0x73)], .cls [(0x65, 0x65)]], false⟩

/-- `STRING_LITERAL1` (syntax_kind/generated.rs L365). -/
def rule_STRING_LITERAL1 : LexRule := ⟨K.STRING_LITERAL1, seqs [.cls [(0x27, 0x27)], .star (.cls [(0x0, 0x9), (0xB, 0xC), (0xE, 0x26), (0x28, 0x5B), (0x5D, 0x10FFFF)]), .cls [(0x27, 0x27)]], false⟩

/-- `STRING_LITERAL2` (syntax_kind/generated.rs L367). -/
def rule_STRING_LITERAL2 : LexRule := ⟨K.STRING_LITERAL2, seqs [.cls [(0x22, 0x22)], .star (alts [.cls [(0x20, 0x21), (0x23, 0x5B), (0x5D, 0x10FFFF)], seqs [.cls [(0x5C, 0x5C)], alts [.cls [(0x22, 0x22), (0x2F, 0x2F), (0x5C, 0x5C), (0x62, 0x62), (0x66, 0x66), (0x6E, 0x6E), (0x72, 0x72), (0x74, 0x74)], seqs [.cls [(0x75, 0x75)], times 4 (.cls [(0x30, 0x39), (0x41, 0x46), (0x61, 0x66)])]]]]), .cls [(0x22, 0x22)]], false⟩

/-- `STRING_LITERAL_LONG1` (syntax_kind/generated.rs L371). -/
def rule_STRING_LITERAL_LONG1 : LexRule := ⟨K.STRING_LITERAL_LONG1, seqs [.cls [(0x27, 0x27)], .cls [(0x27, 0x27)], .cls [(0x27, 0x27)], .star (seqs [opt (alts [.cls [(0x27, 0x27)], seqs [.cls [(0x27, 0x27)], .cls [(0x27, 0x27)]]]), .cls [(0x0, 0x26), (0x28, 0x10FFFF)]]), .cls [(0x27, 0x27)], .cls [(0x27, 0x27)], .cls [(0x27, 0x27)]], false⟩

/-- `STRING_LITERAL_LONG2` (syntax_kind/generated.rs L373). -/
def rule_STRING_LITERAL_LONG2 : LexRule := ⟨K.STRING_LITERAL_LONG2, seqs [.cls [(0x22, 0x22)], .cls [(0x22, 0x22)], .cls [(0x22, 0x22)], .star (seqs [opt (alts [.cls [(0x22, 0x22)], seqs [.cls [(0x22, 0x22)], .cls [(0x22, 0x22)]]]), .cls [(0x0, 0x21), (0x23, 0x10FFFF)]]), .cls [(0x22, 0x22)], .cls [(0x22, 0x22)], .cls [(0x22, 0x22)]], false⟩

/-- `PNAME_LN` (syntax_kind/generated.rs L375). -/
def rule_PNAME_LN : LexRule := ⟨K.PNAME_LN, seqs [seqs [opt (seqs [.cls [(0x41, 0x5A), (0x61, 0x7A), (0xC0, 0xD6), (0xD8, 0xF6), (0xF8, 0x2FF), (0x370, 0x37D), (0x37F, 0x1FFF), (0x200C, 0x200D), (0x2070, 0x218F), (0x2C00, 0x2FEF), (0x3001, 0xD7FF), (0xF900, 0xFDCF), (0xFDF0, 0xFFFD), (0x10000, 0xEFFFF)], opt (seqs [.star (.cls [(0x2D, 0x2E), (0x30, 0x39), (0x41, 0x5A), (0x5F, 0x5F), (0x61, 0x7A), (0xB7, 0xB7), (0xC0, 0xD6), (0xD8, 0xF6), (0xF8, 0x37D), (0x37F, 0x1FFF), (0x200C, 0x200D), (0x203F, 0x2040), (0x2070, 0x218F), (0x2C00, 0x2FEF), (0x3001, 0xD7FF), (0xF900, 0xFDCF), (0xFDF0, 0xFFFD), (0x10000, 0xEFFFF)]), .cls [(0x2D, 0x2D), (0x30, 0x39), (0x41, 0x5A), (0x5F, 0x5F), (0x61, 0x7A), (0xB7, 0xB7), (0xC0, 0xD6), (0xD8, 0xF6), (0xF8, 0x37D), (0x37F, 0x1FFF), (0x200C, 0x200D), (0x203F, 0x2040), (0x2070, 0x218F), (0x2C00, 0x2FEF), (0x3001, 0xD7FF), (0xF900, 0xFDCF), (0xFDF0, 0xFFFD), (0x10000, 0xEFFFF)]])]), .cls [(0x3A, 0x3A)]], seqs [alts [.cls [(0x30, 0x3A), (0x41, 0x5A), (0x5F, 0x5F), (0x61, 0x7A), (0xC0, 0xD6), (0xD8, 0xF6), (0xF8, 0x2FF), (0x370, 0x37D), (0x37F, 0x1FFF), (0x200C, 0x200D), (0x2070, 0x218F), (0x2C00, 0x2FEF), (0x3001, 0xD7FF), (0xF900, 0xFDCF), (0xFDF0, 0xFFFD), (0x10000, 0xEFFFF)], seqs [.cls [(0x25, 0x25)], alts [seqs [opt (.cls [(0x3A, 0x3A)]), .cls [(0x30, 0x39)]], .cls [(0x41, 0x46), (0x61, 0x66)]], alts [seqs [opt (.cls [(0x3A, 0x3A)]), .cls [(0x30, 0x39)]], .cls [(0x41, 0x46), (0x61, 0x66)]]], seqs [.cls [(0x5C, 0x5C)], .cls [(0x21, 0x21), (0x23, 0x2F), (0x3B, 0x3B), (0x3D, 0x3D), (0x3F, 0x40), (0x5F, 0x5F), (0x7E, 0x7E)]]], opt (seqs [.star (alts [.cls [(0x2D, 0x2E), (0x30, 0x3A), (0x41, 0x5A), (0x5F, 0x5F), (0x61, 0x7A), (0xB7, 0xB7), (0xC0, 0xD6), (0xD8, 0xF6), (0xF8, 0x37D), (0x37F, 0x1FFF), (0x200C, 0x200D), (0x203F, 0x2040), (0x2070, 0x218F), (0x2C00, 0x2FEF), (0x3001, 0xD7FF), (0xF900, 0xFDCF), (0xFDF0, 0xFFFD), (0x10000, 0xEFFFF)], seqs [.cls [(0x25, 0x25)], alts [seqs [opt (.cls [(0x3A, 0x3A)]), .cls [(0x30, 0x39)]], .cls [(0x41, 0x46), (0x61, 0x66)]], alts [seqs [opt (.cls [(0x3A, 0x3A)]), .cls [(0x30, 0x39)]], .cls [(0x41, 0x46), (0x61, 0x66)]]], seqs [.cls [(0x5C, 0x5C)], .cls [(0x21, 0x21), (0x23, 0x2F), (0x3B, 0x3B), (0x3D, 0x3D), (0x3F, 0x40), (0x5F, 0x5F), (0x7E, 0x7E)]]]), alts [.cls [(0x2D, 0x2D), (0x30, 0x3A), (0x41, 0x5A), (0x5F, 0x5F), (0x61, 0x7A), (0xB7, 0xB7), (0xC0, 0xD6), (0xD8, 0xF6), (0xF8, 0x37D), (0x37F, 0x1FFF), (0x200C, 0x200D), (0x203F, 0x2040), (0x2070, 0x218F), (0x2C00, 0x2FEF), (0x3001, 0xD7FF), (0xF900, 0xFDCF), (0xFDF0, 0xFFFD), (0x10000, 0xEFFFF)], seqs [.cls [(0x25, 0x25)], alts [seqs [opt (.cls [(0x3A, 0x3A)]), .cls [(0x30, 0x39)]], .cls [(0x41, 0x46), (0x61, 0x66)]], alts [seqs [opt (.cls [(0x3A, 0x3A)]), .cls [(0x30, 0x39)]], .cls [(0x41, 0x46), (0x61, 0x66)]]], seqs [.cls [(0x5C, 0x5C)], .cls [(0x21, 0x21), (0x23, 0x2F), (0x3B, 0x3B), (0x3D, 0x3D), (0x3F, 0x40), (0x5F, 0x5F), (0x7E, 0x7E)]]]])]], false⟩

/-- `BLANK_NODE_LABEL` (syntax_kind/generated.rs L378). -/
def rule_BLANK_NODE_LABEL : LexRule := ⟨K.BLANK_NODE_LABEL, seqs [.cls [(0x5F, 0x5F)], .cls [(0x3A, 0x3A)], .cls [(0x30, 0x39), (0x41, 0x5A), (0x5F, 0x5F), (0x61, 0x7A), (0xC0, 0xD6), (0xD8, 0xF6), (0xF8, 0x2FF), (0x370, 0x37D), (0x37F, 0x1FFF), (0x200C, 0x200D), (0x2070, 0x218F), (0x2C00, 0x2FEF), (0x3001, 0xD7FF), (0xF900, 0xFDCF), (0xFDF0, 0xFFFD), (0x10000, 0xEFFFF)], opt (seqs [.star (.cls [(0x2D, 0x2E), (0x30, 0x39), (0x41, 0x5A), (0x5F, 0x5F), (0x61, 0x7A), (0xB7, 0xB7), (0xC0, 0xD6), (0xD8, 0xF6), (0xF8, 0x37D), (0x37F, 0x1FFF), (0x200C, 0x200D), (0x203F, 0x2040), (0x2070, 0x218F), (0x2C00, 0x2FEF), (0x3001, 0xD7FF), (0xF900, 0xFDCF), (0xFDF0, 0xFFFD), (0x10000, 0xEFFFF)]), .cls [(0x2D, 0x2D), (0x30, 0x39), (0x41, 0x5A), (0x5F, 0x5F), (0x61, 0x7A), (0xB7, 0xB7), (0xC0, 0xD6), (0xD8, 0xF6), (0xF8, 0x37D), (0x37F, 0x1FFF), (0x200C, 0x200D), (0x203F, 0x2040), (0x2070, 0x218F), (0x2C00, 0x2FEF), (0x3001, 0xD7FF), (0xF900, 0xFDCF), (0xFDF0, 0xFFFD), (0x10000, 0xEFFFF)]])], false⟩

/-- `ANON` (syntax_kind/generated.rs L380). -/
def rule_ANON : LexRule := ⟨K.ANON, seqs [.cls [(0x5B, 0x5B)], .star (.cls space), .cls [(0x5D, 0x5D)]], false⟩

/-- All rules, in the order of the enum. -/
def lexRules : List LexRule :=
  [rule_WHITESPACE, rule_Comment, rule_BASE, rule_IRIREF, rule_PREFIX, rule_PNAME_NS,
   rule_SELECT, rule_DISTINCT, rule_REDUCED, rule_LParen, rule_AS, rule_RParen,
   rule_Star, rule_CONSTRUCT, rule_WHERE, rule_LCurly, rule_RCurly, rule_LCurlyPipe,
   rule_PipeRCurly, rule_DESCRIBE, rule_ASK, rule_FROM, rule_NAMED, rule_GROUP,
   rule_BY, rule_HAVING, rule_ORDER, rule_ASC, rule_DESC, rule_LIMIT,
   rule_OFFSET, rule_VALUES, rule_Semicolon, rule_LOAD, rule_SILENT, rule_INTO,
   rule_CLEAR, rule_DROP, rule_CREATE, rule_ADD, rule_TO, rule_MOVE,
   rule_COPY, rule_INSERT, rule_DATA, rule_INSERT_DATA, rule_DELETE_DATA, rule_DELETE_WHERE,
   rule_DELETE, rule_WITH, rule_USING, rule_DEFAULT, rule_GRAPH, rule_ALL,
   rule_Dot, rule_Tilde, rule_OPTIONAL, rule_SERVICE, rule_BIND, rule_NIL,
   rule_UNDEF, rule_MINUS, rule_UNION, rule_FILTER, rule_Comma, rule_a,
   rule_Pipe, rule_Slash, rule_Zirkumflex, rule_QuestionMark, rule_Plus, rule_ExclamationMark,
   rule_LBrack, rule_RBrack, rule_VAR1, rule_VAR2, rule_LANG_DIR, rule_DoublePipe,
   rule_DoubleAnd, rule_Equals, rule_ExclamationMarkEquals, rule_Less, rule_More, rule_LessEquals,
   rule_MoreEquals, rule_DoubleLess, rule_DoubleLessLParen, rule_DoubleMore, rule_RParenDoubleMore, rule_IN,
   rule_NOT, rule_Minus, rule_STR, rule_LANG, rule_LANGMATCHES, rule_DATATYPE,
   rule_BOUND, rule_IRI, rule_URI, rule_BNODE, rule_RAND, rule_ABS,
   rule_CEIL, rule_FLOOR, rule_ROUND, rule_CONCAT, rule_STRLEN, rule_UCASE,
   rule_LCASE, rule_ENCODE_FOR_URI, rule_CONTAINS, rule_STRSTARTS, rule_STRENDS, rule_STRBEFORE,
   rule_STRAFTER, rule_YEAR, rule_MONTH, rule_DAY, rule_HOURS, rule_MINUTES,
   rule_SECONDS, rule_TIMEZONE, rule_TZ, rule_NOW, rule_UUID, rule_STRUUID,
   rule_MD5, rule_SHA1, rule_SHA256, rule_SHA384, rule_SHA512, rule_COALESCE,
   rule_IF, rule_STRLANG, rule_STRDT, rule_sameTerm, rule_isIRI, rule_isURI,
   rule_isBLANK, rule_isLITERAL, rule_isNUMERIC, rule_REGEX, rule_SUBSTR, rule_REPLACE,
   rule_EXISTS, rule_COUNT, rule_SUM, rule_MIN, rule_MAX, rule_AVG,
   rule_SAMPLE, rule_GROUP_CONCAT, rule_SEPARATOR, rule_VERSION, rule_STRLANGDIR, rule_hasLANG,
   rule_hasLANGDIR, rule_isTRIPLE, rule_TRIPLE, rule_SUBJECT, rule_PREDICATE, rule_OBJECT,
   rule_LANGDIR, rule_DoubleZirkumflex, rule_INTEGER, rule_DECIMAL, rule_DOUBLE, rule_INTEGER_POSITIVE,
   rule_DECIMAL_POSITIVE, rule_DOUBLE_POSITIVE, rule_INTEGER_NEGATIVE, rule_DECIMAL_NEGATIVE, rule_DOUBLE_NEGATIVE, rule_True,
   rule_False, rule_STRING_LITERAL1, rule_STRING_LITERAL2, rule_STRING_LITERAL_LONG1, rule_STRING_LITERAL_LONG2, rule_PNAME_LN,
   rule_BLANK_NODE_LABEL, rule_ANON]

end Verif.Lexer
