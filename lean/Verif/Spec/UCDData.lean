import Verif.Spec.UAX29
/-!
# Specification data: the entries of the shipped Unicode 17 data files

Generated by tools/gen_ucd.py from textseg/internal/charprops/ucd: one triple (first, last, value) per data line, in file order.
-/

namespace Textseg.Spec

open GCB InCB

def graphemeBreakProperty_0 : List (Nat × Nat × GCB) := [
  (0x0600, 0x0605, .Prepend),
  (0x06DD, 0x06DD, .Prepend),
  (0x070F, 0x070F, .Prepend),
  (0x0890, 0x0891, .Prepend),
  (0x08E2, 0x08E2, .Prepend),
  (0x0D4E, 0x0D4E, .Prepend),
  (0x110BD, 0x110BD, .Prepend),
  (0x110CD, 0x110CD, .Prepend),
  (0x111C2, 0x111C3, .Prepend),
  (0x113D1, 0x113D1, .Prepend),
  (0x1193F, 0x1193F, .Prepend),
  (0x11941, 0x11941, .Prepend),
  (0x11A84, 0x11A89, .Prepend),
  (0x11D46, 0x11D46, .Prepend),
  (0x11F02, 0x11F02, .Prepend),
  (0x000D, 0x000D, .CR),
  (0x000A, 0x000A, .LF),
  (0x0000, 0x0009, .Control),
  (0x000B, 0x000C, .Control),
  (0x000E, 0x001F, .Control),
  (0x007F, 0x009F, .Control),
  (0x00AD, 0x00AD, .Control),
  (0x061C, 0x061C, .Control),
  (0x180E, 0x180E, .Control),
  (0x200B, 0x200B, .Control),
  (0x200E, 0x200F, .Control),
  (0x2028, 0x2028, .Control),
  (0x2029, 0x2029, .Control),
  (0x202A, 0x202E, .Control),
  (0x2060, 0x2064, .Control),
  (0x2065, 0x2065, .Control),
  (0x2066, 0x206F, .Control),
  (0xFEFF, 0xFEFF, .Control),
  (0xFFF0, 0xFFF8, .Control),
  (0xFFF9, 0xFFFB, .Control),
  (0x13430, 0x1343F, .Control),
  (0x1BCA0, 0x1BCA3, .Control),
  (0x1D173, 0x1D17A, .Control),
  (0xE0000, 0xE0000, .Control),
  (0xE0001, 0xE0001, .Control),
  (0xE0002, 0xE001F, .Control),
  (0xE0080, 0xE00FF, .Control),
  (0xE01F0, 0xE0FFF, .Control),
  (0x0300, 0x036F, .Extend),
  (0x0483, 0x0487, .Extend),
  (0x0488, 0x0489, .Extend),
  (0x0591, 0x05BD, .Extend),
  (0x05BF, 0x05BF, .Extend),
  (0x05C1, 0x05C2, .Extend),
  (0x05C4, 0x05C5, .Extend),
  (0x05C7, 0x05C7, .Extend),
  (0x0610, 0x061A, .Extend),
  (0x064B, 0x065F, .Extend),
  (0x0670, 0x0670, .Extend),
  (0x06D6, 0x06DC, .Extend),
  (0x06DF, 0x06E4, .Extend),
  (0x06E7, 0x06E8, .Extend),
  (0x06EA, 0x06ED, .Extend),
  (0x0711, 0x0711, .Extend),
  (0x0730, 0x074A, .Extend),
  (0x07A6, 0x07B0, .Extend),
  (0x07EB, 0x07F3, .Extend),
  (0x07FD, 0x07FD, .Extend),
  (0x0816, 0x0819, .Extend),
  (0x081B, 0x0823, .Extend),
  (0x0825, 0x0827, .Extend),
  (0x0829, 0x082D, .Extend),
  (0x0859, 0x085B, .Extend),
  (0x0897, 0x089F, .Extend),
  (0x08CA, 0x08E1, .Extend),
  (0x08E3, 0x0902, .Extend),
  (0x093A, 0x093A, .Extend),
  (0x093C, 0x093C, .Extend),
  (0x0941, 0x0948, .Extend),
  (0x094D, 0x094D, .Extend),
  (0x0951, 0x0957, .Extend),
  (0x0962, 0x0963, .Extend),
  (0x0981, 0x0981, .Extend),
  (0x09BC, 0x09BC, .Extend),
  (0x09BE, 0x09BE, .Extend),
  (0x09C1, 0x09C4, .Extend),
  (0x09CD, 0x09CD, .Extend),
  (0x09D7, 0x09D7, .Extend),
  (0x09E2, 0x09E3, .Extend),
  (0x09FE, 0x09FE, .Extend),
  (0x0A01, 0x0A02, .Extend),
  (0x0A3C, 0x0A3C, .Extend),
  (0x0A41, 0x0A42, .Extend),
  (0x0A47, 0x0A48, .Extend),
  (0x0A4B, 0x0A4D, .Extend),
  (0x0A51, 0x0A51, .Extend),
  (0x0A70, 0x0A71, .Extend),
  (0x0A75, 0x0A75, .Extend),
  (0x0A81, 0x0A82, .Extend),
  (0x0ABC, 0x0ABC, .Extend),
  (0x0AC1, 0x0AC5, .Extend),
  (0x0AC7, 0x0AC8, .Extend),
  (0x0ACD, 0x0ACD, .Extend),
  (0x0AE2, 0x0AE3, .Extend),
  (0x0AFA, 0x0AFF, .Extend),
  (0x0B01, 0x0B01, .Extend),
  (0x0B3C, 0x0B3C, .Extend),
  (0x0B3E, 0x0B3E, .Extend),
  (0x0B3F, 0x0B3F, .Extend),
  (0x0B41, 0x0B44, .Extend),
  (0x0B4D, 0x0B4D, .Extend),
  (0x0B55, 0x0B56, .Extend),
  (0x0B57, 0x0B57, .Extend),
  (0x0B62, 0x0B63, .Extend),
  (0x0B82, 0x0B82, .Extend),
  (0x0BBE, 0x0BBE, .Extend),
  (0x0BC0, 0x0BC0, .Extend),
  (0x0BCD, 0x0BCD, .Extend),
  (0x0BD7, 0x0BD7, .Extend),
  (0x0C00, 0x0C00, .Extend),
  (0x0C04, 0x0C04, .Extend),
  (0x0C3C, 0x0C3C, .Extend),
  (0x0C3E, 0x0C40, .Extend),
  (0x0C46, 0x0C48, .Extend),
  (0x0C4A, 0x0C4D, .Extend),
  (0x0C55, 0x0C56, .Extend),
  (0x0C62, 0x0C63, .Extend),
  (0x0C81, 0x0C81, .Extend),
  (0x0CBC, 0x0CBC, .Extend),
  (0x0CBF, 0x0CBF, .Extend),
  (0x0CC0, 0x0CC0, .Extend),
  (0x0CC2, 0x0CC2, .Extend),
  (0x0CC6, 0x0CC6, .Extend),
  (0x0CC7, 0x0CC8, .Extend),
  (0x0CCA, 0x0CCB, .Extend),
  (0x0CCC, 0x0CCD, .Extend),
  (0x0CD5, 0x0CD6, .Extend),
  (0x0CE2, 0x0CE3, .Extend),
  (0x0D00, 0x0D01, .Extend),
  (0x0D3B, 0x0D3C, .Extend),
  (0x0D3E, 0x0D3E, .Extend),
  (0x0D41, 0x0D44, .Extend),
  (0x0D4D, 0x0D4D, .Extend),
  (0x0D57, 0x0D57, .Extend),
  (0x0D62, 0x0D63, .Extend),
  (0x0D81, 0x0D81, .Extend),
  (0x0DCA, 0x0DCA, .Extend),
  (0x0DCF, 0x0DCF, .Extend),
  (0x0DD2, 0x0DD4, .Extend),
  (0x0DD6, 0x0DD6, .Extend),
  (0x0DDF, 0x0DDF, .Extend),
  (0x0E31, 0x0E31, .Extend),
  (0x0E34, 0x0E3A, .Extend),
  (0x0E47, 0x0E4E, .Extend),
  (0x0EB1, 0x0EB1, .Extend)]
def graphemeBreakProperty_1 : List (Nat × Nat × GCB) := [
  (0x0EB4, 0x0EBC, .Extend),
  (0x0EC8, 0x0ECE, .Extend),
  (0x0F18, 0x0F19, .Extend),
  (0x0F35, 0x0F35, .Extend),
  (0x0F37, 0x0F37, .Extend),
  (0x0F39, 0x0F39, .Extend),
  (0x0F71, 0x0F7E, .Extend),
  (0x0F80, 0x0F84, .Extend),
  (0x0F86, 0x0F87, .Extend),
  (0x0F8D, 0x0F97, .Extend),
  (0x0F99, 0x0FBC, .Extend),
  (0x0FC6, 0x0FC6, .Extend),
  (0x102D, 0x1030, .Extend),
  (0x1032, 0x1037, .Extend),
  (0x1039, 0x103A, .Extend),
  (0x103D, 0x103E, .Extend),
  (0x1058, 0x1059, .Extend),
  (0x105E, 0x1060, .Extend),
  (0x1071, 0x1074, .Extend),
  (0x1082, 0x1082, .Extend),
  (0x1085, 0x1086, .Extend),
  (0x108D, 0x108D, .Extend),
  (0x109D, 0x109D, .Extend),
  (0x135D, 0x135F, .Extend),
  (0x1712, 0x1714, .Extend),
  (0x1715, 0x1715, .Extend),
  (0x1732, 0x1733, .Extend),
  (0x1734, 0x1734, .Extend),
  (0x1752, 0x1753, .Extend),
  (0x1772, 0x1773, .Extend),
  (0x17B4, 0x17B5, .Extend),
  (0x17B7, 0x17BD, .Extend),
  (0x17C6, 0x17C6, .Extend),
  (0x17C9, 0x17D3, .Extend),
  (0x17DD, 0x17DD, .Extend),
  (0x180B, 0x180D, .Extend),
  (0x180F, 0x180F, .Extend),
  (0x1885, 0x1886, .Extend),
  (0x18A9, 0x18A9, .Extend),
  (0x1920, 0x1922, .Extend),
  (0x1927, 0x1928, .Extend),
  (0x1932, 0x1932, .Extend),
  (0x1939, 0x193B, .Extend),
  (0x1A17, 0x1A18, .Extend),
  (0x1A1B, 0x1A1B, .Extend),
  (0x1A56, 0x1A56, .Extend),
  (0x1A58, 0x1A5E, .Extend),
  (0x1A60, 0x1A60, .Extend),
  (0x1A62, 0x1A62, .Extend),
  (0x1A65, 0x1A6C, .Extend),
  (0x1A73, 0x1A7C, .Extend),
  (0x1A7F, 0x1A7F, .Extend),
  (0x1AB0, 0x1ABD, .Extend),
  (0x1ABE, 0x1ABE, .Extend),
  (0x1ABF, 0x1ADD, .Extend),
  (0x1AE0, 0x1AEB, .Extend),
  (0x1B00, 0x1B03, .Extend),
  (0x1B34, 0x1B34, .Extend),
  (0x1B35, 0x1B35, .Extend),
  (0x1B36, 0x1B3A, .Extend),
  (0x1B3B, 0x1B3B, .Extend),
  (0x1B3C, 0x1B3C, .Extend),
  (0x1B3D, 0x1B3D, .Extend),
  (0x1B42, 0x1B42, .Extend),
  (0x1B43, 0x1B44, .Extend),
  (0x1B6B, 0x1B73, .Extend),
  (0x1B80, 0x1B81, .Extend),
  (0x1BA2, 0x1BA5, .Extend),
  (0x1BA8, 0x1BA9, .Extend),
  (0x1BAA, 0x1BAA, .Extend),
  (0x1BAB, 0x1BAD, .Extend),
  (0x1BE6, 0x1BE6, .Extend),
  (0x1BE8, 0x1BE9, .Extend),
  (0x1BED, 0x1BED, .Extend),
  (0x1BEF, 0x1BF1, .Extend),
  (0x1BF2, 0x1BF3, .Extend),
  (0x1C2C, 0x1C33, .Extend),
  (0x1C36, 0x1C37, .Extend),
  (0x1CD0, 0x1CD2, .Extend),
  (0x1CD4, 0x1CE0, .Extend),
  (0x1CE2, 0x1CE8, .Extend),
  (0x1CED, 0x1CED, .Extend),
  (0x1CF4, 0x1CF4, .Extend),
  (0x1CF8, 0x1CF9, .Extend),
  (0x1DC0, 0x1DFF, .Extend),
  (0x200C, 0x200C, .Extend),
  (0x20D0, 0x20DC, .Extend),
  (0x20DD, 0x20E0, .Extend),
  (0x20E1, 0x20E1, .Extend),
  (0x20E2, 0x20E4, .Extend),
  (0x20E5, 0x20F0, .Extend),
  (0x2CEF, 0x2CF1, .Extend),
  (0x2D7F, 0x2D7F, .Extend),
  (0x2DE0, 0x2DFF, .Extend),
  (0x302A, 0x302D, .Extend),
  (0x302E, 0x302F, .Extend),
  (0x3099, 0x309A, .Extend),
  (0xA66F, 0xA66F, .Extend),
  (0xA670, 0xA672, .Extend),
  (0xA674, 0xA67D, .Extend),
  (0xA69E, 0xA69F, .Extend),
  (0xA6F0, 0xA6F1, .Extend),
  (0xA802, 0xA802, .Extend),
  (0xA806, 0xA806, .Extend),
  (0xA80B, 0xA80B, .Extend),
  (0xA825, 0xA826, .Extend),
  (0xA82C, 0xA82C, .Extend),
  (0xA8C4, 0xA8C5, .Extend),
  (0xA8E0, 0xA8F1, .Extend),
  (0xA8FF, 0xA8FF, .Extend),
  (0xA926, 0xA92D, .Extend),
  (0xA947, 0xA951, .Extend),
  (0xA953, 0xA953, .Extend),
  (0xA980, 0xA982, .Extend),
  (0xA9B3, 0xA9B3, .Extend),
  (0xA9B6, 0xA9B9, .Extend),
  (0xA9BC, 0xA9BD, .Extend),
  (0xA9C0, 0xA9C0, .Extend),
  (0xA9E5, 0xA9E5, .Extend),
  (0xAA29, 0xAA2E, .Extend),
  (0xAA31, 0xAA32, .Extend),
  (0xAA35, 0xAA36, .Extend),
  (0xAA43, 0xAA43, .Extend),
  (0xAA4C, 0xAA4C, .Extend),
  (0xAA7C, 0xAA7C, .Extend),
  (0xAAB0, 0xAAB0, .Extend),
  (0xAAB2, 0xAAB4, .Extend),
  (0xAAB7, 0xAAB8, .Extend),
  (0xAABE, 0xAABF, .Extend),
  (0xAAC1, 0xAAC1, .Extend),
  (0xAAEC, 0xAAED, .Extend),
  (0xAAF6, 0xAAF6, .Extend),
  (0xABE5, 0xABE5, .Extend),
  (0xABE8, 0xABE8, .Extend),
  (0xABED, 0xABED, .Extend),
  (0xFB1E, 0xFB1E, .Extend),
  (0xFE00, 0xFE0F, .Extend),
  (0xFE20, 0xFE2F, .Extend),
  (0xFF9E, 0xFF9F, .Extend),
  (0x101FD, 0x101FD, .Extend),
  (0x102E0, 0x102E0, .Extend),
  (0x10376, 0x1037A, .Extend),
  (0x10A01, 0x10A03, .Extend),
  (0x10A05, 0x10A06, .Extend),
  (0x10A0C, 0x10A0F, .Extend),
  (0x10A38, 0x10A3A, .Extend),
  (0x10A3F, 0x10A3F, .Extend),
  (0x10AE5, 0x10AE6, .Extend),
  (0x10D24, 0x10D27, .Extend),
  (0x10D69, 0x10D6D, .Extend)]
def graphemeBreakProperty_2 : List (Nat × Nat × GCB) := [
  (0x10EAB, 0x10EAC, .Extend),
  (0x10EFA, 0x10EFF, .Extend),
  (0x10F46, 0x10F50, .Extend),
  (0x10F82, 0x10F85, .Extend),
  (0x11001, 0x11001, .Extend),
  (0x11038, 0x11046, .Extend),
  (0x11070, 0x11070, .Extend),
  (0x11073, 0x11074, .Extend),
  (0x1107F, 0x11081, .Extend),
  (0x110B3, 0x110B6, .Extend),
  (0x110B9, 0x110BA, .Extend),
  (0x110C2, 0x110C2, .Extend),
  (0x11100, 0x11102, .Extend),
  (0x11127, 0x1112B, .Extend),
  (0x1112D, 0x11134, .Extend),
  (0x11173, 0x11173, .Extend),
  (0x11180, 0x11181, .Extend),
  (0x111B6, 0x111BE, .Extend),
  (0x111C0, 0x111C0, .Extend),
  (0x111C9, 0x111CC, .Extend),
  (0x111CF, 0x111CF, .Extend),
  (0x1122F, 0x11231, .Extend),
  (0x11234, 0x11234, .Extend),
  (0x11235, 0x11235, .Extend),
  (0x11236, 0x11237, .Extend),
  (0x1123E, 0x1123E, .Extend),
  (0x11241, 0x11241, .Extend),
  (0x112DF, 0x112DF, .Extend),
  (0x112E3, 0x112EA, .Extend),
  (0x11300, 0x11301, .Extend),
  (0x1133B, 0x1133C, .Extend),
  (0x1133E, 0x1133E, .Extend),
  (0x11340, 0x11340, .Extend),
  (0x1134D, 0x1134D, .Extend),
  (0x11357, 0x11357, .Extend),
  (0x11366, 0x1136C, .Extend),
  (0x11370, 0x11374, .Extend),
  (0x113B8, 0x113B8, .Extend),
  (0x113BB, 0x113C0, .Extend),
  (0x113C2, 0x113C2, .Extend),
  (0x113C5, 0x113C5, .Extend),
  (0x113C7, 0x113C9, .Extend),
  (0x113CE, 0x113CE, .Extend),
  (0x113CF, 0x113CF, .Extend),
  (0x113D0, 0x113D0, .Extend),
  (0x113D2, 0x113D2, .Extend),
  (0x113E1, 0x113E2, .Extend),
  (0x11438, 0x1143F, .Extend),
  (0x11442, 0x11444, .Extend),
  (0x11446, 0x11446, .Extend),
  (0x1145E, 0x1145E, .Extend),
  (0x114B0, 0x114B0, .Extend),
  (0x114B3, 0x114B8, .Extend),
  (0x114BA, 0x114BA, .Extend),
  (0x114BD, 0x114BD, .Extend),
  (0x114BF, 0x114C0, .Extend),
  (0x114C2, 0x114C3, .Extend),
  (0x115AF, 0x115AF, .Extend),
  (0x115B2, 0x115B5, .Extend),
  (0x115BC, 0x115BD, .Extend),
  (0x115BF, 0x115C0, .Extend),
  (0x115DC, 0x115DD, .Extend),
  (0x11633, 0x1163A, .Extend),
  (0x1163D, 0x1163D, .Extend),
  (0x1163F, 0x11640, .Extend),
  (0x116AB, 0x116AB, .Extend),
  (0x116AD, 0x116AD, .Extend),
  (0x116B0, 0x116B5, .Extend),
  (0x116B6, 0x116B6, .Extend),
  (0x116B7, 0x116B7, .Extend),
  (0x1171D, 0x1171D, .Extend),
  (0x1171F, 0x1171F, .Extend),
  (0x11722, 0x11725, .Extend),
  (0x11727, 0x1172B, .Extend),
  (0x1182F, 0x11837, .Extend),
  (0x11839, 0x1183A, .Extend),
  (0x11930, 0x11930, .Extend),
  (0x1193B, 0x1193C, .Extend),
  (0x1193D, 0x1193D, .Extend),
  (0x1193E, 0x1193E, .Extend),
  (0x11943, 0x11943, .Extend),
  (0x119D4, 0x119D7, .Extend),
  (0x119DA, 0x119DB, .Extend),
  (0x119E0, 0x119E0, .Extend),
  (0x11A01, 0x11A0A, .Extend),
  (0x11A33, 0x11A38, .Extend),
  (0x11A3B, 0x11A3E, .Extend),
  (0x11A47, 0x11A47, .Extend),
  (0x11A51, 0x11A56, .Extend),
  (0x11A59, 0x11A5B, .Extend),
  (0x11A8A, 0x11A96, .Extend),
  (0x11A98, 0x11A99, .Extend),
  (0x11B60, 0x11B60, .Extend),
  (0x11B62, 0x11B64, .Extend),
  (0x11B66, 0x11B66, .Extend),
  (0x11C30, 0x11C36, .Extend),
  (0x11C38, 0x11C3D, .Extend),
  (0x11C3F, 0x11C3F, .Extend),
  (0x11C92, 0x11CA7, .Extend),
  (0x11CAA, 0x11CB0, .Extend),
  (0x11CB2, 0x11CB3, .Extend),
  (0x11CB5, 0x11CB6, .Extend),
  (0x11D31, 0x11D36, .Extend),
  (0x11D3A, 0x11D3A, .Extend),
  (0x11D3C, 0x11D3D, .Extend),
  (0x11D3F, 0x11D45, .Extend),
  (0x11D47, 0x11D47, .Extend),
  (0x11D90, 0x11D91, .Extend),
  (0x11D95, 0x11D95, .Extend),
  (0x11D97, 0x11D97, .Extend),
  (0x11EF3, 0x11EF4, .Extend),
  (0x11F00, 0x11F01, .Extend),
  (0x11F36, 0x11F3A, .Extend),
  (0x11F40, 0x11F40, .Extend),
  (0x11F41, 0x11F41, .Extend),
  (0x11F42, 0x11F42, .Extend),
  (0x11F5A, 0x11F5A, .Extend),
  (0x13440, 0x13440, .Extend),
  (0x13447, 0x13455, .Extend),
  (0x1611E, 0x16129, .Extend),
  (0x1612D, 0x1612F, .Extend),
  (0x16AF0, 0x16AF4, .Extend),
  (0x16B30, 0x16B36, .Extend),
  (0x16F4F, 0x16F4F, .Extend),
  (0x16F8F, 0x16F92, .Extend),
  (0x16FE4, 0x16FE4, .Extend),
  (0x16FF0, 0x16FF1, .Extend),
  (0x1BC9D, 0x1BC9E, .Extend),
  (0x1CF00, 0x1CF2D, .Extend),
  (0x1CF30, 0x1CF46, .Extend),
  (0x1D165, 0x1D166, .Extend),
  (0x1D167, 0x1D169, .Extend),
  (0x1D16D, 0x1D172, .Extend),
  (0x1D17B, 0x1D182, .Extend),
  (0x1D185, 0x1D18B, .Extend),
  (0x1D1AA, 0x1D1AD, .Extend),
  (0x1D242, 0x1D244, .Extend),
  (0x1DA00, 0x1DA36, .Extend),
  (0x1DA3B, 0x1DA6C, .Extend),
  (0x1DA75, 0x1DA75, .Extend),
  (0x1DA84, 0x1DA84, .Extend),
  (0x1DA9B, 0x1DA9F, .Extend),
  (0x1DAA1, 0x1DAAF, .Extend),
  (0x1E000, 0x1E006, .Extend),
  (0x1E008, 0x1E018, .Extend),
  (0x1E01B, 0x1E021, .Extend),
  (0x1E023, 0x1E024, .Extend),
  (0x1E026, 0x1E02A, .Extend),
  (0x1E08F, 0x1E08F, .Extend),
  (0x1E130, 0x1E136, .Extend)]
def graphemeBreakProperty_3 : List (Nat × Nat × GCB) := [
  (0x1E2AE, 0x1E2AE, .Extend),
  (0x1E2EC, 0x1E2EF, .Extend),
  (0x1E4EC, 0x1E4EF, .Extend),
  (0x1E5EE, 0x1E5EF, .Extend),
  (0x1E6E3, 0x1E6E3, .Extend),
  (0x1E6E6, 0x1E6E6, .Extend),
  (0x1E6EE, 0x1E6EF, .Extend),
  (0x1E6F5, 0x1E6F5, .Extend),
  (0x1E8D0, 0x1E8D6, .Extend),
  (0x1E944, 0x1E94A, .Extend),
  (0x1F3FB, 0x1F3FF, .Extend),
  (0xE0020, 0xE007F, .Extend),
  (0xE0100, 0xE01EF, .Extend),
  (0x1F1E6, 0x1F1FF, .RegionalIndicator),
  (0x0903, 0x0903, .SpacingMark),
  (0x093B, 0x093B, .SpacingMark),
  (0x093E, 0x0940, .SpacingMark),
  (0x0949, 0x094C, .SpacingMark),
  (0x094E, 0x094F, .SpacingMark),
  (0x0982, 0x0983, .SpacingMark),
  (0x09BF, 0x09C0, .SpacingMark),
  (0x09C7, 0x09C8, .SpacingMark),
  (0x09CB, 0x09CC, .SpacingMark),
  (0x0A03, 0x0A03, .SpacingMark),
  (0x0A3E, 0x0A40, .SpacingMark),
  (0x0A83, 0x0A83, .SpacingMark),
  (0x0ABE, 0x0AC0, .SpacingMark),
  (0x0AC9, 0x0AC9, .SpacingMark),
  (0x0ACB, 0x0ACC, .SpacingMark),
  (0x0B02, 0x0B03, .SpacingMark),
  (0x0B40, 0x0B40, .SpacingMark),
  (0x0B47, 0x0B48, .SpacingMark),
  (0x0B4B, 0x0B4C, .SpacingMark),
  (0x0BBF, 0x0BBF, .SpacingMark),
  (0x0BC1, 0x0BC2, .SpacingMark),
  (0x0BC6, 0x0BC8, .SpacingMark),
  (0x0BCA, 0x0BCC, .SpacingMark),
  (0x0C01, 0x0C03, .SpacingMark),
  (0x0C41, 0x0C44, .SpacingMark),
  (0x0C82, 0x0C83, .SpacingMark),
  (0x0CBE, 0x0CBE, .SpacingMark),
  (0x0CC1, 0x0CC1, .SpacingMark),
  (0x0CC3, 0x0CC4, .SpacingMark),
  (0x0CF3, 0x0CF3, .SpacingMark),
  (0x0D02, 0x0D03, .SpacingMark),
  (0x0D3F, 0x0D40, .SpacingMark),
  (0x0D46, 0x0D48, .SpacingMark),
  (0x0D4A, 0x0D4C, .SpacingMark),
  (0x0D82, 0x0D83, .SpacingMark),
  (0x0DD0, 0x0DD1, .SpacingMark),
  (0x0DD8, 0x0DDE, .SpacingMark),
  (0x0DF2, 0x0DF3, .SpacingMark),
  (0x0E33, 0x0E33, .SpacingMark),
  (0x0EB3, 0x0EB3, .SpacingMark),
  (0x0F3E, 0x0F3F, .SpacingMark),
  (0x0F7F, 0x0F7F, .SpacingMark),
  (0x1031, 0x1031, .SpacingMark),
  (0x103B, 0x103C, .SpacingMark),
  (0x1056, 0x1057, .SpacingMark),
  (0x1084, 0x1084, .SpacingMark),
  (0x17B6, 0x17B6, .SpacingMark),
  (0x17BE, 0x17C5, .SpacingMark),
  (0x17C7, 0x17C8, .SpacingMark),
  (0x1923, 0x1926, .SpacingMark),
  (0x1929, 0x192B, .SpacingMark),
  (0x1930, 0x1931, .SpacingMark),
  (0x1933, 0x1938, .SpacingMark),
  (0x1A19, 0x1A1A, .SpacingMark),
  (0x1A55, 0x1A55, .SpacingMark),
  (0x1A57, 0x1A57, .SpacingMark),
  (0x1A6D, 0x1A72, .SpacingMark),
  (0x1B04, 0x1B04, .SpacingMark),
  (0x1B3E, 0x1B41, .SpacingMark),
  (0x1B82, 0x1B82, .SpacingMark),
  (0x1BA1, 0x1BA1, .SpacingMark),
  (0x1BA6, 0x1BA7, .SpacingMark),
  (0x1BE7, 0x1BE7, .SpacingMark),
  (0x1BEA, 0x1BEC, .SpacingMark),
  (0x1BEE, 0x1BEE, .SpacingMark),
  (0x1C24, 0x1C2B, .SpacingMark),
  (0x1C34, 0x1C35, .SpacingMark),
  (0x1CE1, 0x1CE1, .SpacingMark),
  (0x1CF7, 0x1CF7, .SpacingMark),
  (0xA823, 0xA824, .SpacingMark),
  (0xA827, 0xA827, .SpacingMark),
  (0xA880, 0xA881, .SpacingMark),
  (0xA8B4, 0xA8C3, .SpacingMark),
  (0xA952, 0xA952, .SpacingMark),
  (0xA983, 0xA983, .SpacingMark),
  (0xA9B4, 0xA9B5, .SpacingMark),
  (0xA9BA, 0xA9BB, .SpacingMark),
  (0xA9BE, 0xA9BF, .SpacingMark),
  (0xAA2F, 0xAA30, .SpacingMark),
  (0xAA33, 0xAA34, .SpacingMark),
  (0xAA4D, 0xAA4D, .SpacingMark),
  (0xAAEB, 0xAAEB, .SpacingMark),
  (0xAAEE, 0xAAEF, .SpacingMark),
  (0xAAF5, 0xAAF5, .SpacingMark),
  (0xABE3, 0xABE4, .SpacingMark),
  (0xABE6, 0xABE7, .SpacingMark),
  (0xABE9, 0xABEA, .SpacingMark),
  (0xABEC, 0xABEC, .SpacingMark),
  (0x11000, 0x11000, .SpacingMark),
  (0x11002, 0x11002, .SpacingMark),
  (0x11082, 0x11082, .SpacingMark),
  (0x110B0, 0x110B2, .SpacingMark),
  (0x110B7, 0x110B8, .SpacingMark),
  (0x1112C, 0x1112C, .SpacingMark),
  (0x11145, 0x11146, .SpacingMark),
  (0x11182, 0x11182, .SpacingMark),
  (0x111B3, 0x111B5, .SpacingMark),
  (0x111BF, 0x111BF, .SpacingMark),
  (0x111CE, 0x111CE, .SpacingMark),
  (0x1122C, 0x1122E, .SpacingMark),
  (0x11232, 0x11233, .SpacingMark),
  (0x112E0, 0x112E2, .SpacingMark),
  (0x11302, 0x11303, .SpacingMark),
  (0x1133F, 0x1133F, .SpacingMark),
  (0x11341, 0x11344, .SpacingMark),
  (0x11347, 0x11348, .SpacingMark),
  (0x1134B, 0x1134C, .SpacingMark),
  (0x11362, 0x11363, .SpacingMark),
  (0x113B9, 0x113BA, .SpacingMark),
  (0x113CA, 0x113CA, .SpacingMark),
  (0x113CC, 0x113CD, .SpacingMark),
  (0x11435, 0x11437, .SpacingMark),
  (0x11440, 0x11441, .SpacingMark),
  (0x11445, 0x11445, .SpacingMark),
  (0x114B1, 0x114B2, .SpacingMark),
  (0x114B9, 0x114B9, .SpacingMark),
  (0x114BB, 0x114BC, .SpacingMark),
  (0x114BE, 0x114BE, .SpacingMark),
  (0x114C1, 0x114C1, .SpacingMark),
  (0x115B0, 0x115B1, .SpacingMark),
  (0x115B8, 0x115BB, .SpacingMark),
  (0x115BE, 0x115BE, .SpacingMark),
  (0x11630, 0x11632, .SpacingMark),
  (0x1163B, 0x1163C, .SpacingMark),
  (0x1163E, 0x1163E, .SpacingMark),
  (0x116AC, 0x116AC, .SpacingMark),
  (0x116AE, 0x116AF, .SpacingMark),
  (0x1171E, 0x1171E, .SpacingMark),
  (0x11726, 0x11726, .SpacingMark),
  (0x1182C, 0x1182E, .SpacingMark),
  (0x11838, 0x11838, .SpacingMark),
  (0x11931, 0x11935, .SpacingMark),
  (0x11937, 0x11938, .SpacingMark),
  (0x11940, 0x11940, .SpacingMark),
  (0x11942, 0x11942, .SpacingMark),
  (0x119D1, 0x119D3, .SpacingMark)]
def graphemeBreakProperty_4 : List (Nat × Nat × GCB) := [
  (0x119DC, 0x119DF, .SpacingMark),
  (0x119E4, 0x119E4, .SpacingMark),
  (0x11A39, 0x11A39, .SpacingMark),
  (0x11A57, 0x11A58, .SpacingMark),
  (0x11A97, 0x11A97, .SpacingMark),
  (0x11B61, 0x11B61, .SpacingMark),
  (0x11B65, 0x11B65, .SpacingMark),
  (0x11B67, 0x11B67, .SpacingMark),
  (0x11C2F, 0x11C2F, .SpacingMark),
  (0x11C3E, 0x11C3E, .SpacingMark),
  (0x11CA9, 0x11CA9, .SpacingMark),
  (0x11CB1, 0x11CB1, .SpacingMark),
  (0x11CB4, 0x11CB4, .SpacingMark),
  (0x11D8A, 0x11D8E, .SpacingMark),
  (0x11D93, 0x11D94, .SpacingMark),
  (0x11D96, 0x11D96, .SpacingMark),
  (0x11EF5, 0x11EF6, .SpacingMark),
  (0x11F03, 0x11F03, .SpacingMark),
  (0x11F34, 0x11F35, .SpacingMark),
  (0x11F3E, 0x11F3F, .SpacingMark),
  (0x1612A, 0x1612C, .SpacingMark),
  (0x16F51, 0x16F87, .SpacingMark),
  (0x1100, 0x115F, .L),
  (0xA960, 0xA97C, .L),
  (0x1160, 0x11A7, .V),
  (0xD7B0, 0xD7C6, .V),
  (0x16D63, 0x16D63, .V),
  (0x16D67, 0x16D6A, .V),
  (0x11A8, 0x11FF, .T),
  (0xD7CB, 0xD7FB, .T),
  (0xAC00, 0xAC00, .LV),
  (0xAC1C, 0xAC1C, .LV),
  (0xAC38, 0xAC38, .LV),
  (0xAC54, 0xAC54, .LV),
  (0xAC70, 0xAC70, .LV),
  (0xAC8C, 0xAC8C, .LV),
  (0xACA8, 0xACA8, .LV),
  (0xACC4, 0xACC4, .LV),
  (0xACE0, 0xACE0, .LV),
  (0xACFC, 0xACFC, .LV),
  (0xAD18, 0xAD18, .LV),
  (0xAD34, 0xAD34, .LV),
  (0xAD50, 0xAD50, .LV),
  (0xAD6C, 0xAD6C, .LV),
  (0xAD88, 0xAD88, .LV),
  (0xADA4, 0xADA4, .LV),
  (0xADC0, 0xADC0, .LV),
  (0xADDC, 0xADDC, .LV),
  (0xADF8, 0xADF8, .LV),
  (0xAE14, 0xAE14, .LV),
  (0xAE30, 0xAE30, .LV),
  (0xAE4C, 0xAE4C, .LV),
  (0xAE68, 0xAE68, .LV),
  (0xAE84, 0xAE84, .LV),
  (0xAEA0, 0xAEA0, .LV),
  (0xAEBC, 0xAEBC, .LV),
  (0xAED8, 0xAED8, .LV),
  (0xAEF4, 0xAEF4, .LV),
  (0xAF10, 0xAF10, .LV),
  (0xAF2C, 0xAF2C, .LV),
  (0xAF48, 0xAF48, .LV),
  (0xAF64, 0xAF64, .LV),
  (0xAF80, 0xAF80, .LV),
  (0xAF9C, 0xAF9C, .LV),
  (0xAFB8, 0xAFB8, .LV),
  (0xAFD4, 0xAFD4, .LV),
  (0xAFF0, 0xAFF0, .LV),
  (0xB00C, 0xB00C, .LV),
  (0xB028, 0xB028, .LV),
  (0xB044, 0xB044, .LV),
  (0xB060, 0xB060, .LV),
  (0xB07C, 0xB07C, .LV),
  (0xB098, 0xB098, .LV),
  (0xB0B4, 0xB0B4, .LV),
  (0xB0D0, 0xB0D0, .LV),
  (0xB0EC, 0xB0EC, .LV),
  (0xB108, 0xB108, .LV),
  (0xB124, 0xB124, .LV),
  (0xB140, 0xB140, .LV),
  (0xB15C, 0xB15C, .LV),
  (0xB178, 0xB178, .LV),
  (0xB194, 0xB194, .LV),
  (0xB1B0, 0xB1B0, .LV),
  (0xB1CC, 0xB1CC, .LV),
  (0xB1E8, 0xB1E8, .LV),
  (0xB204, 0xB204, .LV),
  (0xB220, 0xB220, .LV),
  (0xB23C, 0xB23C, .LV),
  (0xB258, 0xB258, .LV),
  (0xB274, 0xB274, .LV),
  (0xB290, 0xB290, .LV),
  (0xB2AC, 0xB2AC, .LV),
  (0xB2C8, 0xB2C8, .LV),
  (0xB2E4, 0xB2E4, .LV),
  (0xB300, 0xB300, .LV),
  (0xB31C, 0xB31C, .LV),
  (0xB338, 0xB338, .LV),
  (0xB354, 0xB354, .LV),
  (0xB370, 0xB370, .LV),
  (0xB38C, 0xB38C, .LV),
  (0xB3A8, 0xB3A8, .LV),
  (0xB3C4, 0xB3C4, .LV),
  (0xB3E0, 0xB3E0, .LV),
  (0xB3FC, 0xB3FC, .LV),
  (0xB418, 0xB418, .LV),
  (0xB434, 0xB434, .LV),
  (0xB450, 0xB450, .LV),
  (0xB46C, 0xB46C, .LV),
  (0xB488, 0xB488, .LV),
  (0xB4A4, 0xB4A4, .LV),
  (0xB4C0, 0xB4C0, .LV),
  (0xB4DC, 0xB4DC, .LV),
  (0xB4F8, 0xB4F8, .LV),
  (0xB514, 0xB514, .LV),
  (0xB530, 0xB530, .LV),
  (0xB54C, 0xB54C, .LV),
  (0xB568, 0xB568, .LV),
  (0xB584, 0xB584, .LV),
  (0xB5A0, 0xB5A0, .LV),
  (0xB5BC, 0xB5BC, .LV),
  (0xB5D8, 0xB5D8, .LV),
  (0xB5F4, 0xB5F4, .LV),
  (0xB610, 0xB610, .LV),
  (0xB62C, 0xB62C, .LV),
  (0xB648, 0xB648, .LV),
  (0xB664, 0xB664, .LV),
  (0xB680, 0xB680, .LV),
  (0xB69C, 0xB69C, .LV),
  (0xB6B8, 0xB6B8, .LV),
  (0xB6D4, 0xB6D4, .LV),
  (0xB6F0, 0xB6F0, .LV),
  (0xB70C, 0xB70C, .LV),
  (0xB728, 0xB728, .LV),
  (0xB744, 0xB744, .LV),
  (0xB760, 0xB760, .LV),
  (0xB77C, 0xB77C, .LV),
  (0xB798, 0xB798, .LV),
  (0xB7B4, 0xB7B4, .LV),
  (0xB7D0, 0xB7D0, .LV),
  (0xB7EC, 0xB7EC, .LV),
  (0xB808, 0xB808, .LV),
  (0xB824, 0xB824, .LV),
  (0xB840, 0xB840, .LV),
  (0xB85C, 0xB85C, .LV),
  (0xB878, 0xB878, .LV),
  (0xB894, 0xB894, .LV),
  (0xB8B0, 0xB8B0, .LV),
  (0xB8CC, 0xB8CC, .LV),
  (0xB8E8, 0xB8E8, .LV),
  (0xB904, 0xB904, .LV)]
def graphemeBreakProperty_5 : List (Nat × Nat × GCB) := [
  (0xB920, 0xB920, .LV),
  (0xB93C, 0xB93C, .LV),
  (0xB958, 0xB958, .LV),
  (0xB974, 0xB974, .LV),
  (0xB990, 0xB990, .LV),
  (0xB9AC, 0xB9AC, .LV),
  (0xB9C8, 0xB9C8, .LV),
  (0xB9E4, 0xB9E4, .LV),
  (0xBA00, 0xBA00, .LV),
  (0xBA1C, 0xBA1C, .LV),
  (0xBA38, 0xBA38, .LV),
  (0xBA54, 0xBA54, .LV),
  (0xBA70, 0xBA70, .LV),
  (0xBA8C, 0xBA8C, .LV),
  (0xBAA8, 0xBAA8, .LV),
  (0xBAC4, 0xBAC4, .LV),
  (0xBAE0, 0xBAE0, .LV),
  (0xBAFC, 0xBAFC, .LV),
  (0xBB18, 0xBB18, .LV),
  (0xBB34, 0xBB34, .LV),
  (0xBB50, 0xBB50, .LV),
  (0xBB6C, 0xBB6C, .LV),
  (0xBB88, 0xBB88, .LV),
  (0xBBA4, 0xBBA4, .LV),
  (0xBBC0, 0xBBC0, .LV),
  (0xBBDC, 0xBBDC, .LV),
  (0xBBF8, 0xBBF8, .LV),
  (0xBC14, 0xBC14, .LV),
  (0xBC30, 0xBC30, .LV),
  (0xBC4C, 0xBC4C, .LV),
  (0xBC68, 0xBC68, .LV),
  (0xBC84, 0xBC84, .LV),
  (0xBCA0, 0xBCA0, .LV),
  (0xBCBC, 0xBCBC, .LV),
  (0xBCD8, 0xBCD8, .LV),
  (0xBCF4, 0xBCF4, .LV),
  (0xBD10, 0xBD10, .LV),
  (0xBD2C, 0xBD2C, .LV),
  (0xBD48, 0xBD48, .LV),
  (0xBD64, 0xBD64, .LV),
  (0xBD80, 0xBD80, .LV),
  (0xBD9C, 0xBD9C, .LV),
  (0xBDB8, 0xBDB8, .LV),
  (0xBDD4, 0xBDD4, .LV),
  (0xBDF0, 0xBDF0, .LV),
  (0xBE0C, 0xBE0C, .LV),
  (0xBE28, 0xBE28, .LV),
  (0xBE44, 0xBE44, .LV),
  (0xBE60, 0xBE60, .LV),
  (0xBE7C, 0xBE7C, .LV),
  (0xBE98, 0xBE98, .LV),
  (0xBEB4, 0xBEB4, .LV),
  (0xBED0, 0xBED0, .LV),
  (0xBEEC, 0xBEEC, .LV),
  (0xBF08, 0xBF08, .LV),
  (0xBF24, 0xBF24, .LV),
  (0xBF40, 0xBF40, .LV),
  (0xBF5C, 0xBF5C, .LV),
  (0xBF78, 0xBF78, .LV),
  (0xBF94, 0xBF94, .LV),
  (0xBFB0, 0xBFB0, .LV),
  (0xBFCC, 0xBFCC, .LV),
  (0xBFE8, 0xBFE8, .LV),
  (0xC004, 0xC004, .LV),
  (0xC020, 0xC020, .LV),
  (0xC03C, 0xC03C, .LV),
  (0xC058, 0xC058, .LV),
  (0xC074, 0xC074, .LV),
  (0xC090, 0xC090, .LV),
  (0xC0AC, 0xC0AC, .LV),
  (0xC0C8, 0xC0C8, .LV),
  (0xC0E4, 0xC0E4, .LV),
  (0xC100, 0xC100, .LV),
  (0xC11C, 0xC11C, .LV),
  (0xC138, 0xC138, .LV),
  (0xC154, 0xC154, .LV),
  (0xC170, 0xC170, .LV),
  (0xC18C, 0xC18C, .LV),
  (0xC1A8, 0xC1A8, .LV),
  (0xC1C4, 0xC1C4, .LV),
  (0xC1E0, 0xC1E0, .LV),
  (0xC1FC, 0xC1FC, .LV),
  (0xC218, 0xC218, .LV),
  (0xC234, 0xC234, .LV),
  (0xC250, 0xC250, .LV),
  (0xC26C, 0xC26C, .LV),
  (0xC288, 0xC288, .LV),
  (0xC2A4, 0xC2A4, .LV),
  (0xC2C0, 0xC2C0, .LV),
  (0xC2DC, 0xC2DC, .LV),
  (0xC2F8, 0xC2F8, .LV),
  (0xC314, 0xC314, .LV),
  (0xC330, 0xC330, .LV),
  (0xC34C, 0xC34C, .LV),
  (0xC368, 0xC368, .LV),
  (0xC384, 0xC384, .LV),
  (0xC3A0, 0xC3A0, .LV),
  (0xC3BC, 0xC3BC, .LV),
  (0xC3D8, 0xC3D8, .LV),
  (0xC3F4, 0xC3F4, .LV),
  (0xC410, 0xC410, .LV),
  (0xC42C, 0xC42C, .LV),
  (0xC448, 0xC448, .LV),
  (0xC464, 0xC464, .LV),
  (0xC480, 0xC480, .LV),
  (0xC49C, 0xC49C, .LV),
  (0xC4B8, 0xC4B8, .LV),
  (0xC4D4, 0xC4D4, .LV),
  (0xC4F0, 0xC4F0, .LV),
  (0xC50C, 0xC50C, .LV),
  (0xC528, 0xC528, .LV),
  (0xC544, 0xC544, .LV),
  (0xC560, 0xC560, .LV),
  (0xC57C, 0xC57C, .LV),
  (0xC598, 0xC598, .LV),
  (0xC5B4, 0xC5B4, .LV),
  (0xC5D0, 0xC5D0, .LV),
  (0xC5EC, 0xC5EC, .LV),
  (0xC608, 0xC608, .LV),
  (0xC624, 0xC624, .LV),
  (0xC640, 0xC640, .LV),
  (0xC65C, 0xC65C, .LV),
  (0xC678, 0xC678, .LV),
  (0xC694, 0xC694, .LV),
  (0xC6B0, 0xC6B0, .LV),
  (0xC6CC, 0xC6CC, .LV),
  (0xC6E8, 0xC6E8, .LV),
  (0xC704, 0xC704, .LV),
  (0xC720, 0xC720, .LV),
  (0xC73C, 0xC73C, .LV),
  (0xC758, 0xC758, .LV),
  (0xC774, 0xC774, .LV),
  (0xC790, 0xC790, .LV),
  (0xC7AC, 0xC7AC, .LV),
  (0xC7C8, 0xC7C8, .LV),
  (0xC7E4, 0xC7E4, .LV),
  (0xC800, 0xC800, .LV),
  (0xC81C, 0xC81C, .LV),
  (0xC838, 0xC838, .LV),
  (0xC854, 0xC854, .LV),
  (0xC870, 0xC870, .LV),
  (0xC88C, 0xC88C, .LV),
  (0xC8A8, 0xC8A8, .LV),
  (0xC8C4, 0xC8C4, .LV),
  (0xC8E0, 0xC8E0, .LV),
  (0xC8FC, 0xC8FC, .LV),
  (0xC918, 0xC918, .LV),
  (0xC934, 0xC934, .LV),
  (0xC950, 0xC950, .LV),
  (0xC96C, 0xC96C, .LV)]
def graphemeBreakProperty_6 : List (Nat × Nat × GCB) := [
  (0xC988, 0xC988, .LV),
  (0xC9A4, 0xC9A4, .LV),
  (0xC9C0, 0xC9C0, .LV),
  (0xC9DC, 0xC9DC, .LV),
  (0xC9F8, 0xC9F8, .LV),
  (0xCA14, 0xCA14, .LV),
  (0xCA30, 0xCA30, .LV),
  (0xCA4C, 0xCA4C, .LV),
  (0xCA68, 0xCA68, .LV),
  (0xCA84, 0xCA84, .LV),
  (0xCAA0, 0xCAA0, .LV),
  (0xCABC, 0xCABC, .LV),
  (0xCAD8, 0xCAD8, .LV),
  (0xCAF4, 0xCAF4, .LV),
  (0xCB10, 0xCB10, .LV),
  (0xCB2C, 0xCB2C, .LV),
  (0xCB48, 0xCB48, .LV),
  (0xCB64, 0xCB64, .LV),
  (0xCB80, 0xCB80, .LV),
  (0xCB9C, 0xCB9C, .LV),
  (0xCBB8, 0xCBB8, .LV),
  (0xCBD4, 0xCBD4, .LV),
  (0xCBF0, 0xCBF0, .LV),
  (0xCC0C, 0xCC0C, .LV),
  (0xCC28, 0xCC28, .LV),
  (0xCC44, 0xCC44, .LV),
  (0xCC60, 0xCC60, .LV),
  (0xCC7C, 0xCC7C, .LV),
  (0xCC98, 0xCC98, .LV),
  (0xCCB4, 0xCCB4, .LV),
  (0xCCD0, 0xCCD0, .LV),
  (0xCCEC, 0xCCEC, .LV),
  (0xCD08, 0xCD08, .LV),
  (0xCD24, 0xCD24, .LV),
  (0xCD40, 0xCD40, .LV),
  (0xCD5C, 0xCD5C, .LV),
  (0xCD78, 0xCD78, .LV),
  (0xCD94, 0xCD94, .LV),
  (0xCDB0, 0xCDB0, .LV),
  (0xCDCC, 0xCDCC, .LV),
  (0xCDE8, 0xCDE8, .LV),
  (0xCE04, 0xCE04, .LV),
  (0xCE20, 0xCE20, .LV),
  (0xCE3C, 0xCE3C, .LV),
  (0xCE58, 0xCE58, .LV),
  (0xCE74, 0xCE74, .LV),
  (0xCE90, 0xCE90, .LV),
  (0xCEAC, 0xCEAC, .LV),
  (0xCEC8, 0xCEC8, .LV),
  (0xCEE4, 0xCEE4, .LV),
  (0xCF00, 0xCF00, .LV),
  (0xCF1C, 0xCF1C, .LV),
  (0xCF38, 0xCF38, .LV),
  (0xCF54, 0xCF54, .LV),
  (0xCF70, 0xCF70, .LV),
  (0xCF8C, 0xCF8C, .LV),
  (0xCFA8, 0xCFA8, .LV),
  (0xCFC4, 0xCFC4, .LV),
  (0xCFE0, 0xCFE0, .LV),
  (0xCFFC, 0xCFFC, .LV),
  (0xD018, 0xD018, .LV),
  (0xD034, 0xD034, .LV),
  (0xD050, 0xD050, .LV),
  (0xD06C, 0xD06C, .LV),
  (0xD088, 0xD088, .LV),
  (0xD0A4, 0xD0A4, .LV),
  (0xD0C0, 0xD0C0, .LV),
  (0xD0DC, 0xD0DC, .LV),
  (0xD0F8, 0xD0F8, .LV),
  (0xD114, 0xD114, .LV),
  (0xD130, 0xD130, .LV),
  (0xD14C, 0xD14C, .LV),
  (0xD168, 0xD168, .LV),
  (0xD184, 0xD184, .LV),
  (0xD1A0, 0xD1A0, .LV),
  (0xD1BC, 0xD1BC, .LV),
  (0xD1D8, 0xD1D8, .LV),
  (0xD1F4, 0xD1F4, .LV),
  (0xD210, 0xD210, .LV),
  (0xD22C, 0xD22C, .LV),
  (0xD248, 0xD248, .LV),
  (0xD264, 0xD264, .LV),
  (0xD280, 0xD280, .LV),
  (0xD29C, 0xD29C, .LV),
  (0xD2B8, 0xD2B8, .LV),
  (0xD2D4, 0xD2D4, .LV),
  (0xD2F0, 0xD2F0, .LV),
  (0xD30C, 0xD30C, .LV),
  (0xD328, 0xD328, .LV),
  (0xD344, 0xD344, .LV),
  (0xD360, 0xD360, .LV),
  (0xD37C, 0xD37C, .LV),
  (0xD398, 0xD398, .LV),
  (0xD3B4, 0xD3B4, .LV),
  (0xD3D0, 0xD3D0, .LV),
  (0xD3EC, 0xD3EC, .LV),
  (0xD408, 0xD408, .LV),
  (0xD424, 0xD424, .LV),
  (0xD440, 0xD440, .LV),
  (0xD45C, 0xD45C, .LV),
  (0xD478, 0xD478, .LV),
  (0xD494, 0xD494, .LV),
  (0xD4B0, 0xD4B0, .LV),
  (0xD4CC, 0xD4CC, .LV),
  (0xD4E8, 0xD4E8, .LV),
  (0xD504, 0xD504, .LV),
  (0xD520, 0xD520, .LV),
  (0xD53C, 0xD53C, .LV),
  (0xD558, 0xD558, .LV),
  (0xD574, 0xD574, .LV),
  (0xD590, 0xD590, .LV),
  (0xD5AC, 0xD5AC, .LV),
  (0xD5C8, 0xD5C8, .LV),
  (0xD5E4, 0xD5E4, .LV),
  (0xD600, 0xD600, .LV),
  (0xD61C, 0xD61C, .LV),
  (0xD638, 0xD638, .LV),
  (0xD654, 0xD654, .LV),
  (0xD670, 0xD670, .LV),
  (0xD68C, 0xD68C, .LV),
  (0xD6A8, 0xD6A8, .LV),
  (0xD6C4, 0xD6C4, .LV),
  (0xD6E0, 0xD6E0, .LV),
  (0xD6FC, 0xD6FC, .LV),
  (0xD718, 0xD718, .LV),
  (0xD734, 0xD734, .LV),
  (0xD750, 0xD750, .LV),
  (0xD76C, 0xD76C, .LV),
  (0xD788, 0xD788, .LV),
  (0xAC01, 0xAC1B, .LVT),
  (0xAC1D, 0xAC37, .LVT),
  (0xAC39, 0xAC53, .LVT),
  (0xAC55, 0xAC6F, .LVT),
  (0xAC71, 0xAC8B, .LVT),
  (0xAC8D, 0xACA7, .LVT),
  (0xACA9, 0xACC3, .LVT),
  (0xACC5, 0xACDF, .LVT),
  (0xACE1, 0xACFB, .LVT),
  (0xACFD, 0xAD17, .LVT),
  (0xAD19, 0xAD33, .LVT),
  (0xAD35, 0xAD4F, .LVT),
  (0xAD51, 0xAD6B, .LVT),
  (0xAD6D, 0xAD87, .LVT),
  (0xAD89, 0xADA3, .LVT),
  (0xADA5, 0xADBF, .LVT),
  (0xADC1, 0xADDB, .LVT),
  (0xADDD, 0xADF7, .LVT),
  (0xADF9, 0xAE13, .LVT),
  (0xAE15, 0xAE2F, .LVT),
  (0xAE31, 0xAE4B, .LVT)]
def graphemeBreakProperty_7 : List (Nat × Nat × GCB) := [
  (0xAE4D, 0xAE67, .LVT),
  (0xAE69, 0xAE83, .LVT),
  (0xAE85, 0xAE9F, .LVT),
  (0xAEA1, 0xAEBB, .LVT),
  (0xAEBD, 0xAED7, .LVT),
  (0xAED9, 0xAEF3, .LVT),
  (0xAEF5, 0xAF0F, .LVT),
  (0xAF11, 0xAF2B, .LVT),
  (0xAF2D, 0xAF47, .LVT),
  (0xAF49, 0xAF63, .LVT),
  (0xAF65, 0xAF7F, .LVT),
  (0xAF81, 0xAF9B, .LVT),
  (0xAF9D, 0xAFB7, .LVT),
  (0xAFB9, 0xAFD3, .LVT),
  (0xAFD5, 0xAFEF, .LVT),
  (0xAFF1, 0xB00B, .LVT),
  (0xB00D, 0xB027, .LVT),
  (0xB029, 0xB043, .LVT),
  (0xB045, 0xB05F, .LVT),
  (0xB061, 0xB07B, .LVT),
  (0xB07D, 0xB097, .LVT),
  (0xB099, 0xB0B3, .LVT),
  (0xB0B5, 0xB0CF, .LVT),
  (0xB0D1, 0xB0EB, .LVT),
  (0xB0ED, 0xB107, .LVT),
  (0xB109, 0xB123, .LVT),
  (0xB125, 0xB13F, .LVT),
  (0xB141, 0xB15B, .LVT),
  (0xB15D, 0xB177, .LVT),
  (0xB179, 0xB193, .LVT),
  (0xB195, 0xB1AF, .LVT),
  (0xB1B1, 0xB1CB, .LVT),
  (0xB1CD, 0xB1E7, .LVT),
  (0xB1E9, 0xB203, .LVT),
  (0xB205, 0xB21F, .LVT),
  (0xB221, 0xB23B, .LVT),
  (0xB23D, 0xB257, .LVT),
  (0xB259, 0xB273, .LVT),
  (0xB275, 0xB28F, .LVT),
  (0xB291, 0xB2AB, .LVT),
  (0xB2AD, 0xB2C7, .LVT),
  (0xB2C9, 0xB2E3, .LVT),
  (0xB2E5, 0xB2FF, .LVT),
  (0xB301, 0xB31B, .LVT),
  (0xB31D, 0xB337, .LVT),
  (0xB339, 0xB353, .LVT),
  (0xB355, 0xB36F, .LVT),
  (0xB371, 0xB38B, .LVT),
  (0xB38D, 0xB3A7, .LVT),
  (0xB3A9, 0xB3C3, .LVT),
  (0xB3C5, 0xB3DF, .LVT),
  (0xB3E1, 0xB3FB, .LVT),
  (0xB3FD, 0xB417, .LVT),
  (0xB419, 0xB433, .LVT),
  (0xB435, 0xB44F, .LVT),
  (0xB451, 0xB46B, .LVT),
  (0xB46D, 0xB487, .LVT),
  (0xB489, 0xB4A3, .LVT),
  (0xB4A5, 0xB4BF, .LVT),
  (0xB4C1, 0xB4DB, .LVT),
  (0xB4DD, 0xB4F7, .LVT),
  (0xB4F9, 0xB513, .LVT),
  (0xB515, 0xB52F, .LVT),
  (0xB531, 0xB54B, .LVT),
  (0xB54D, 0xB567, .LVT),
  (0xB569, 0xB583, .LVT),
  (0xB585, 0xB59F, .LVT),
  (0xB5A1, 0xB5BB, .LVT),
  (0xB5BD, 0xB5D7, .LVT),
  (0xB5D9, 0xB5F3, .LVT),
  (0xB5F5, 0xB60F, .LVT),
  (0xB611, 0xB62B, .LVT),
  (0xB62D, 0xB647, .LVT),
  (0xB649, 0xB663, .LVT),
  (0xB665, 0xB67F, .LVT),
  (0xB681, 0xB69B, .LVT),
  (0xB69D, 0xB6B7, .LVT),
  (0xB6B9, 0xB6D3, .LVT),
  (0xB6D5, 0xB6EF, .LVT),
  (0xB6F1, 0xB70B, .LVT),
  (0xB70D, 0xB727, .LVT),
  (0xB729, 0xB743, .LVT),
  (0xB745, 0xB75F, .LVT),
  (0xB761, 0xB77B, .LVT),
  (0xB77D, 0xB797, .LVT),
  (0xB799, 0xB7B3, .LVT),
  (0xB7B5, 0xB7CF, .LVT),
  (0xB7D1, 0xB7EB, .LVT),
  (0xB7ED, 0xB807, .LVT),
  (0xB809, 0xB823, .LVT),
  (0xB825, 0xB83F, .LVT),
  (0xB841, 0xB85B, .LVT),
  (0xB85D, 0xB877, .LVT),
  (0xB879, 0xB893, .LVT),
  (0xB895, 0xB8AF, .LVT),
  (0xB8B1, 0xB8CB, .LVT),
  (0xB8CD, 0xB8E7, .LVT),
  (0xB8E9, 0xB903, .LVT),
  (0xB905, 0xB91F, .LVT),
  (0xB921, 0xB93B, .LVT),
  (0xB93D, 0xB957, .LVT),
  (0xB959, 0xB973, .LVT),
  (0xB975, 0xB98F, .LVT),
  (0xB991, 0xB9AB, .LVT),
  (0xB9AD, 0xB9C7, .LVT),
  (0xB9C9, 0xB9E3, .LVT),
  (0xB9E5, 0xB9FF, .LVT),
  (0xBA01, 0xBA1B, .LVT),
  (0xBA1D, 0xBA37, .LVT),
  (0xBA39, 0xBA53, .LVT),
  (0xBA55, 0xBA6F, .LVT),
  (0xBA71, 0xBA8B, .LVT),
  (0xBA8D, 0xBAA7, .LVT),
  (0xBAA9, 0xBAC3, .LVT),
  (0xBAC5, 0xBADF, .LVT),
  (0xBAE1, 0xBAFB, .LVT),
  (0xBAFD, 0xBB17, .LVT),
  (0xBB19, 0xBB33, .LVT),
  (0xBB35, 0xBB4F, .LVT),
  (0xBB51, 0xBB6B, .LVT),
  (0xBB6D, 0xBB87, .LVT),
  (0xBB89, 0xBBA3, .LVT),
  (0xBBA5, 0xBBBF, .LVT),
  (0xBBC1, 0xBBDB, .LVT),
  (0xBBDD, 0xBBF7, .LVT),
  (0xBBF9, 0xBC13, .LVT),
  (0xBC15, 0xBC2F, .LVT),
  (0xBC31, 0xBC4B, .LVT),
  (0xBC4D, 0xBC67, .LVT),
  (0xBC69, 0xBC83, .LVT),
  (0xBC85, 0xBC9F, .LVT),
  (0xBCA1, 0xBCBB, .LVT),
  (0xBCBD, 0xBCD7, .LVT),
  (0xBCD9, 0xBCF3, .LVT),
  (0xBCF5, 0xBD0F, .LVT),
  (0xBD11, 0xBD2B, .LVT),
  (0xBD2D, 0xBD47, .LVT),
  (0xBD49, 0xBD63, .LVT),
  (0xBD65, 0xBD7F, .LVT),
  (0xBD81, 0xBD9B, .LVT),
  (0xBD9D, 0xBDB7, .LVT),
  (0xBDB9, 0xBDD3, .LVT),
  (0xBDD5, 0xBDEF, .LVT),
  (0xBDF1, 0xBE0B, .LVT),
  (0xBE0D, 0xBE27, .LVT),
  (0xBE29, 0xBE43, .LVT),
  (0xBE45, 0xBE5F, .LVT),
  (0xBE61, 0xBE7B, .LVT),
  (0xBE7D, 0xBE97, .LVT),
  (0xBE99, 0xBEB3, .LVT)]
def graphemeBreakProperty_8 : List (Nat × Nat × GCB) := [
  (0xBEB5, 0xBECF, .LVT),
  (0xBED1, 0xBEEB, .LVT),
  (0xBEED, 0xBF07, .LVT),
  (0xBF09, 0xBF23, .LVT),
  (0xBF25, 0xBF3F, .LVT),
  (0xBF41, 0xBF5B, .LVT),
  (0xBF5D, 0xBF77, .LVT),
  (0xBF79, 0xBF93, .LVT),
  (0xBF95, 0xBFAF, .LVT),
  (0xBFB1, 0xBFCB, .LVT),
  (0xBFCD, 0xBFE7, .LVT),
  (0xBFE9, 0xC003, .LVT),
  (0xC005, 0xC01F, .LVT),
  (0xC021, 0xC03B, .LVT),
  (0xC03D, 0xC057, .LVT),
  (0xC059, 0xC073, .LVT),
  (0xC075, 0xC08F, .LVT),
  (0xC091, 0xC0AB, .LVT),
  (0xC0AD, 0xC0C7, .LVT),
  (0xC0C9, 0xC0E3, .LVT),
  (0xC0E5, 0xC0FF, .LVT),
  (0xC101, 0xC11B, .LVT),
  (0xC11D, 0xC137, .LVT),
  (0xC139, 0xC153, .LVT),
  (0xC155, 0xC16F, .LVT),
  (0xC171, 0xC18B, .LVT),
  (0xC18D, 0xC1A7, .LVT),
  (0xC1A9, 0xC1C3, .LVT),
  (0xC1C5, 0xC1DF, .LVT),
  (0xC1E1, 0xC1FB, .LVT),
  (0xC1FD, 0xC217, .LVT),
  (0xC219, 0xC233, .LVT),
  (0xC235, 0xC24F, .LVT),
  (0xC251, 0xC26B, .LVT),
  (0xC26D, 0xC287, .LVT),
  (0xC289, 0xC2A3, .LVT),
  (0xC2A5, 0xC2BF, .LVT),
  (0xC2C1, 0xC2DB, .LVT),
  (0xC2DD, 0xC2F7, .LVT),
  (0xC2F9, 0xC313, .LVT),
  (0xC315, 0xC32F, .LVT),
  (0xC331, 0xC34B, .LVT),
  (0xC34D, 0xC367, .LVT),
  (0xC369, 0xC383, .LVT),
  (0xC385, 0xC39F, .LVT),
  (0xC3A1, 0xC3BB, .LVT),
  (0xC3BD, 0xC3D7, .LVT),
  (0xC3D9, 0xC3F3, .LVT),
  (0xC3F5, 0xC40F, .LVT),
  (0xC411, 0xC42B, .LVT),
  (0xC42D, 0xC447, .LVT),
  (0xC449, 0xC463, .LVT),
  (0xC465, 0xC47F, .LVT),
  (0xC481, 0xC49B, .LVT),
  (0xC49D, 0xC4B7, .LVT),
  (0xC4B9, 0xC4D3, .LVT),
  (0xC4D5, 0xC4EF, .LVT),
  (0xC4F1, 0xC50B, .LVT),
  (0xC50D, 0xC527, .LVT),
  (0xC529, 0xC543, .LVT),
  (0xC545, 0xC55F, .LVT),
  (0xC561, 0xC57B, .LVT),
  (0xC57D, 0xC597, .LVT),
  (0xC599, 0xC5B3, .LVT),
  (0xC5B5, 0xC5CF, .LVT),
  (0xC5D1, 0xC5EB, .LVT),
  (0xC5ED, 0xC607, .LVT),
  (0xC609, 0xC623, .LVT),
  (0xC625, 0xC63F, .LVT),
  (0xC641, 0xC65B, .LVT),
  (0xC65D, 0xC677, .LVT),
  (0xC679, 0xC693, .LVT),
  (0xC695, 0xC6AF, .LVT),
  (0xC6B1, 0xC6CB, .LVT),
  (0xC6CD, 0xC6E7, .LVT),
  (0xC6E9, 0xC703, .LVT),
  (0xC705, 0xC71F, .LVT),
  (0xC721, 0xC73B, .LVT),
  (0xC73D, 0xC757, .LVT),
  (0xC759, 0xC773, .LVT),
  (0xC775, 0xC78F, .LVT),
  (0xC791, 0xC7AB, .LVT),
  (0xC7AD, 0xC7C7, .LVT),
  (0xC7C9, 0xC7E3, .LVT),
  (0xC7E5, 0xC7FF, .LVT),
  (0xC801, 0xC81B, .LVT),
  (0xC81D, 0xC837, .LVT),
  (0xC839, 0xC853, .LVT),
  (0xC855, 0xC86F, .LVT),
  (0xC871, 0xC88B, .LVT),
  (0xC88D, 0xC8A7, .LVT),
  (0xC8A9, 0xC8C3, .LVT),
  (0xC8C5, 0xC8DF, .LVT),
  (0xC8E1, 0xC8FB, .LVT),
  (0xC8FD, 0xC917, .LVT),
  (0xC919, 0xC933, .LVT),
  (0xC935, 0xC94F, .LVT),
  (0xC951, 0xC96B, .LVT),
  (0xC96D, 0xC987, .LVT),
  (0xC989, 0xC9A3, .LVT),
  (0xC9A5, 0xC9BF, .LVT),
  (0xC9C1, 0xC9DB, .LVT),
  (0xC9DD, 0xC9F7, .LVT),
  (0xC9F9, 0xCA13, .LVT),
  (0xCA15, 0xCA2F, .LVT),
  (0xCA31, 0xCA4B, .LVT),
  (0xCA4D, 0xCA67, .LVT),
  (0xCA69, 0xCA83, .LVT),
  (0xCA85, 0xCA9F, .LVT),
  (0xCAA1, 0xCABB, .LVT),
  (0xCABD, 0xCAD7, .LVT),
  (0xCAD9, 0xCAF3, .LVT),
  (0xCAF5, 0xCB0F, .LVT),
  (0xCB11, 0xCB2B, .LVT),
  (0xCB2D, 0xCB47, .LVT),
  (0xCB49, 0xCB63, .LVT),
  (0xCB65, 0xCB7F, .LVT),
  (0xCB81, 0xCB9B, .LVT),
  (0xCB9D, 0xCBB7, .LVT),
  (0xCBB9, 0xCBD3, .LVT),
  (0xCBD5, 0xCBEF, .LVT),
  (0xCBF1, 0xCC0B, .LVT),
  (0xCC0D, 0xCC27, .LVT),
  (0xCC29, 0xCC43, .LVT),
  (0xCC45, 0xCC5F, .LVT),
  (0xCC61, 0xCC7B, .LVT),
  (0xCC7D, 0xCC97, .LVT),
  (0xCC99, 0xCCB3, .LVT),
  (0xCCB5, 0xCCCF, .LVT),
  (0xCCD1, 0xCCEB, .LVT),
  (0xCCED, 0xCD07, .LVT),
  (0xCD09, 0xCD23, .LVT),
  (0xCD25, 0xCD3F, .LVT),
  (0xCD41, 0xCD5B, .LVT),
  (0xCD5D, 0xCD77, .LVT),
  (0xCD79, 0xCD93, .LVT),
  (0xCD95, 0xCDAF, .LVT),
  (0xCDB1, 0xCDCB, .LVT),
  (0xCDCD, 0xCDE7, .LVT),
  (0xCDE9, 0xCE03, .LVT),
  (0xCE05, 0xCE1F, .LVT),
  (0xCE21, 0xCE3B, .LVT),
  (0xCE3D, 0xCE57, .LVT),
  (0xCE59, 0xCE73, .LVT),
  (0xCE75, 0xCE8F, .LVT),
  (0xCE91, 0xCEAB, .LVT),
  (0xCEAD, 0xCEC7, .LVT),
  (0xCEC9, 0xCEE3, .LVT),
  (0xCEE5, 0xCEFF, .LVT),
  (0xCF01, 0xCF1B, .LVT)]
def graphemeBreakProperty_9 : List (Nat × Nat × GCB) := [
  (0xCF1D, 0xCF37, .LVT),
  (0xCF39, 0xCF53, .LVT),
  (0xCF55, 0xCF6F, .LVT),
  (0xCF71, 0xCF8B, .LVT),
  (0xCF8D, 0xCFA7, .LVT),
  (0xCFA9, 0xCFC3, .LVT),
  (0xCFC5, 0xCFDF, .LVT),
  (0xCFE1, 0xCFFB, .LVT),
  (0xCFFD, 0xD017, .LVT),
  (0xD019, 0xD033, .LVT),
  (0xD035, 0xD04F, .LVT),
  (0xD051, 0xD06B, .LVT),
  (0xD06D, 0xD087, .LVT),
  (0xD089, 0xD0A3, .LVT),
  (0xD0A5, 0xD0BF, .LVT),
  (0xD0C1, 0xD0DB, .LVT),
  (0xD0DD, 0xD0F7, .LVT),
  (0xD0F9, 0xD113, .LVT),
  (0xD115, 0xD12F, .LVT),
  (0xD131, 0xD14B, .LVT),
  (0xD14D, 0xD167, .LVT),
  (0xD169, 0xD183, .LVT),
  (0xD185, 0xD19F, .LVT),
  (0xD1A1, 0xD1BB, .LVT),
  (0xD1BD, 0xD1D7, .LVT),
  (0xD1D9, 0xD1F3, .LVT),
  (0xD1F5, 0xD20F, .LVT),
  (0xD211, 0xD22B, .LVT),
  (0xD22D, 0xD247, .LVT),
  (0xD249, 0xD263, .LVT),
  (0xD265, 0xD27F, .LVT),
  (0xD281, 0xD29B, .LVT),
  (0xD29D, 0xD2B7, .LVT),
  (0xD2B9, 0xD2D3, .LVT),
  (0xD2D5, 0xD2EF, .LVT),
  (0xD2F1, 0xD30B, .LVT),
  (0xD30D, 0xD327, .LVT),
  (0xD329, 0xD343, .LVT),
  (0xD345, 0xD35F, .LVT),
  (0xD361, 0xD37B, .LVT),
  (0xD37D, 0xD397, .LVT),
  (0xD399, 0xD3B3, .LVT),
  (0xD3B5, 0xD3CF, .LVT),
  (0xD3D1, 0xD3EB, .LVT),
  (0xD3ED, 0xD407, .LVT),
  (0xD409, 0xD423, .LVT),
  (0xD425, 0xD43F, .LVT),
  (0xD441, 0xD45B, .LVT),
  (0xD45D, 0xD477, .LVT),
  (0xD479, 0xD493, .LVT),
  (0xD495, 0xD4AF, .LVT),
  (0xD4B1, 0xD4CB, .LVT),
  (0xD4CD, 0xD4E7, .LVT),
  (0xD4E9, 0xD503, .LVT),
  (0xD505, 0xD51F, .LVT),
  (0xD521, 0xD53B, .LVT),
  (0xD53D, 0xD557, .LVT),
  (0xD559, 0xD573, .LVT),
  (0xD575, 0xD58F, .LVT),
  (0xD591, 0xD5AB, .LVT),
  (0xD5AD, 0xD5C7, .LVT),
  (0xD5C9, 0xD5E3, .LVT),
  (0xD5E5, 0xD5FF, .LVT),
  (0xD601, 0xD61B, .LVT),
  (0xD61D, 0xD637, .LVT),
  (0xD639, 0xD653, .LVT),
  (0xD655, 0xD66F, .LVT),
  (0xD671, 0xD68B, .LVT),
  (0xD68D, 0xD6A7, .LVT),
  (0xD6A9, 0xD6C3, .LVT),
  (0xD6C5, 0xD6DF, .LVT),
  (0xD6E1, 0xD6FB, .LVT),
  (0xD6FD, 0xD717, .LVT),
  (0xD719, 0xD733, .LVT),
  (0xD735, 0xD74F, .LVT),
  (0xD751, 0xD76B, .LVT),
  (0xD76D, 0xD787, .LVT),
  (0xD789, 0xD7A3, .LVT),
  (0x200D, 0x200D, .ZWJ)]
/-- All data lines of ucd/auxiliary/GraphemeBreakProperty.txt (1429 lines). -/
def graphemeBreakProperty : List (Nat × Nat × GCB) :=
  graphemeBreakProperty_0 ++ graphemeBreakProperty_1 ++ graphemeBreakProperty_2 ++ graphemeBreakProperty_3 ++ graphemeBreakProperty_4 ++ graphemeBreakProperty_5 ++ graphemeBreakProperty_6 ++ graphemeBreakProperty_7 ++ graphemeBreakProperty_8 ++ graphemeBreakProperty_9

def extendedPictographic_0 : List (Nat × Nat × Unit) := [
  (0x00A9, 0x00A9, ()),
  (0x00AE, 0x00AE, ()),
  (0x203C, 0x203C, ()),
  (0x2049, 0x2049, ()),
  (0x2122, 0x2122, ()),
  (0x2139, 0x2139, ()),
  (0x2194, 0x2199, ()),
  (0x21A9, 0x21AA, ()),
  (0x231A, 0x231B, ()),
  (0x2328, 0x2328, ()),
  (0x23CF, 0x23CF, ()),
  (0x23E9, 0x23EC, ()),
  (0x23ED, 0x23EE, ()),
  (0x23EF, 0x23EF, ()),
  (0x23F0, 0x23F0, ()),
  (0x23F1, 0x23F2, ()),
  (0x23F3, 0x23F3, ()),
  (0x23F8, 0x23FA, ()),
  (0x24C2, 0x24C2, ()),
  (0x25AA, 0x25AB, ()),
  (0x25B6, 0x25B6, ()),
  (0x25C0, 0x25C0, ()),
  (0x25FB, 0x25FE, ()),
  (0x2600, 0x2601, ()),
  (0x2602, 0x2603, ()),
  (0x2604, 0x2604, ()),
  (0x260E, 0x260E, ()),
  (0x2611, 0x2611, ()),
  (0x2614, 0x2615, ()),
  (0x2618, 0x2618, ()),
  (0x261D, 0x261D, ()),
  (0x2620, 0x2620, ()),
  (0x2622, 0x2623, ()),
  (0x2626, 0x2626, ()),
  (0x262A, 0x262A, ()),
  (0x262E, 0x262E, ()),
  (0x262F, 0x262F, ()),
  (0x2638, 0x2639, ()),
  (0x263A, 0x263A, ()),
  (0x2640, 0x2640, ()),
  (0x2642, 0x2642, ()),
  (0x2648, 0x2653, ()),
  (0x265F, 0x265F, ()),
  (0x2660, 0x2660, ()),
  (0x2663, 0x2663, ()),
  (0x2665, 0x2666, ()),
  (0x2668, 0x2668, ()),
  (0x267B, 0x267B, ()),
  (0x267E, 0x267E, ()),
  (0x267F, 0x267F, ()),
  (0x2692, 0x2692, ()),
  (0x2693, 0x2693, ()),
  (0x2694, 0x2694, ()),
  (0x2695, 0x2695, ()),
  (0x2696, 0x2697, ()),
  (0x2699, 0x2699, ()),
  (0x269B, 0x269C, ()),
  (0x26A0, 0x26A1, ()),
  (0x26A7, 0x26A7, ()),
  (0x26AA, 0x26AB, ()),
  (0x26B0, 0x26B1, ()),
  (0x26BD, 0x26BE, ()),
  (0x26C4, 0x26C5, ()),
  (0x26C8, 0x26C8, ()),
  (0x26CE, 0x26CE, ()),
  (0x26CF, 0x26CF, ()),
  (0x26D1, 0x26D1, ()),
  (0x26D3, 0x26D3, ()),
  (0x26D4, 0x26D4, ()),
  (0x26E9, 0x26E9, ()),
  (0x26EA, 0x26EA, ()),
  (0x26F0, 0x26F1, ()),
  (0x26F2, 0x26F3, ()),
  (0x26F4, 0x26F4, ()),
  (0x26F5, 0x26F5, ()),
  (0x26F7, 0x26F9, ()),
  (0x26FA, 0x26FA, ()),
  (0x26FD, 0x26FD, ()),
  (0x2702, 0x2702, ()),
  (0x2705, 0x2705, ()),
  (0x2708, 0x270C, ()),
  (0x270D, 0x270D, ()),
  (0x270F, 0x270F, ()),
  (0x2712, 0x2712, ()),
  (0x2714, 0x2714, ()),
  (0x2716, 0x2716, ()),
  (0x271D, 0x271D, ()),
  (0x2721, 0x2721, ()),
  (0x2728, 0x2728, ()),
  (0x2733, 0x2734, ()),
  (0x2744, 0x2744, ()),
  (0x2747, 0x2747, ()),
  (0x274C, 0x274C, ()),
  (0x274E, 0x274E, ()),
  (0x2753, 0x2755, ()),
  (0x2757, 0x2757, ()),
  (0x2763, 0x2763, ()),
  (0x2764, 0x2764, ()),
  (0x2795, 0x2797, ()),
  (0x27A1, 0x27A1, ()),
  (0x27B0, 0x27B0, ()),
  (0x27BF, 0x27BF, ()),
  (0x2934, 0x2935, ()),
  (0x2B05, 0x2B07, ()),
  (0x2B1B, 0x2B1C, ()),
  (0x2B50, 0x2B50, ()),
  (0x2B55, 0x2B55, ()),
  (0x3030, 0x3030, ()),
  (0x303D, 0x303D, ()),
  (0x3297, 0x3297, ()),
  (0x3299, 0x3299, ()),
  (0x1F004, 0x1F004, ()),
  (0x1F02C, 0x1F02F, ()),
  (0x1F094, 0x1F09F, ()),
  (0x1F0AF, 0x1F0B0, ()),
  (0x1F0C0, 0x1F0C0, ()),
  (0x1F0CF, 0x1F0CF, ()),
  (0x1F0D0, 0x1F0D0, ()),
  (0x1F0F6, 0x1F0FF, ()),
  (0x1F170, 0x1F171, ()),
  (0x1F17E, 0x1F17F, ()),
  (0x1F18E, 0x1F18E, ()),
  (0x1F191, 0x1F19A, ()),
  (0x1F1AE, 0x1F1E5, ()),
  (0x1F201, 0x1F202, ()),
  (0x1F203, 0x1F20F, ()),
  (0x1F21A, 0x1F21A, ()),
  (0x1F22F, 0x1F22F, ()),
  (0x1F232, 0x1F23A, ()),
  (0x1F23C, 0x1F23F, ()),
  (0x1F249, 0x1F24F, ()),
  (0x1F250, 0x1F251, ()),
  (0x1F252, 0x1F25F, ()),
  (0x1F266, 0x1F2FF, ()),
  (0x1F300, 0x1F30C, ()),
  (0x1F30D, 0x1F30E, ()),
  (0x1F30F, 0x1F30F, ()),
  (0x1F310, 0x1F310, ()),
  (0x1F311, 0x1F311, ()),
  (0x1F312, 0x1F312, ()),
  (0x1F313, 0x1F315, ()),
  (0x1F316, 0x1F318, ()),
  (0x1F319, 0x1F319, ()),
  (0x1F31A, 0x1F31A, ()),
  (0x1F31B, 0x1F31B, ()),
  (0x1F31C, 0x1F31C, ()),
  (0x1F31D, 0x1F31E, ()),
  (0x1F31F, 0x1F320, ()),
  (0x1F321, 0x1F321, ()),
  (0x1F324, 0x1F32C, ())]
def extendedPictographic_1 : List (Nat × Nat × Unit) := [
  (0x1F32D, 0x1F32F, ()),
  (0x1F330, 0x1F331, ()),
  (0x1F332, 0x1F333, ()),
  (0x1F334, 0x1F335, ()),
  (0x1F336, 0x1F336, ()),
  (0x1F337, 0x1F34A, ()),
  (0x1F34B, 0x1F34B, ()),
  (0x1F34C, 0x1F34F, ()),
  (0x1F350, 0x1F350, ()),
  (0x1F351, 0x1F37B, ()),
  (0x1F37C, 0x1F37C, ()),
  (0x1F37D, 0x1F37D, ()),
  (0x1F37E, 0x1F37F, ()),
  (0x1F380, 0x1F393, ()),
  (0x1F396, 0x1F397, ()),
  (0x1F399, 0x1F39B, ()),
  (0x1F39E, 0x1F39F, ()),
  (0x1F3A0, 0x1F3C4, ()),
  (0x1F3C5, 0x1F3C5, ()),
  (0x1F3C6, 0x1F3C6, ()),
  (0x1F3C7, 0x1F3C7, ()),
  (0x1F3C8, 0x1F3C8, ()),
  (0x1F3C9, 0x1F3C9, ()),
  (0x1F3CA, 0x1F3CA, ()),
  (0x1F3CB, 0x1F3CE, ()),
  (0x1F3CF, 0x1F3D3, ()),
  (0x1F3D4, 0x1F3DF, ()),
  (0x1F3E0, 0x1F3E3, ()),
  (0x1F3E4, 0x1F3E4, ()),
  (0x1F3E5, 0x1F3F0, ()),
  (0x1F3F3, 0x1F3F3, ()),
  (0x1F3F4, 0x1F3F4, ()),
  (0x1F3F5, 0x1F3F5, ()),
  (0x1F3F7, 0x1F3F7, ()),
  (0x1F3F8, 0x1F3FA, ()),
  (0x1F400, 0x1F407, ()),
  (0x1F408, 0x1F408, ()),
  (0x1F409, 0x1F40B, ()),
  (0x1F40C, 0x1F40E, ()),
  (0x1F40F, 0x1F410, ()),
  (0x1F411, 0x1F412, ()),
  (0x1F413, 0x1F413, ()),
  (0x1F414, 0x1F414, ()),
  (0x1F415, 0x1F415, ()),
  (0x1F416, 0x1F416, ()),
  (0x1F417, 0x1F429, ()),
  (0x1F42A, 0x1F42A, ()),
  (0x1F42B, 0x1F43E, ()),
  (0x1F43F, 0x1F43F, ()),
  (0x1F440, 0x1F440, ()),
  (0x1F441, 0x1F441, ()),
  (0x1F442, 0x1F464, ()),
  (0x1F465, 0x1F465, ()),
  (0x1F466, 0x1F46B, ()),
  (0x1F46C, 0x1F46D, ()),
  (0x1F46E, 0x1F4AC, ()),
  (0x1F4AD, 0x1F4AD, ()),
  (0x1F4AE, 0x1F4B5, ()),
  (0x1F4B6, 0x1F4B7, ()),
  (0x1F4B8, 0x1F4EB, ()),
  (0x1F4EC, 0x1F4ED, ()),
  (0x1F4EE, 0x1F4EE, ()),
  (0x1F4EF, 0x1F4EF, ()),
  (0x1F4F0, 0x1F4F4, ()),
  (0x1F4F5, 0x1F4F5, ()),
  (0x1F4F6, 0x1F4F7, ()),
  (0x1F4F8, 0x1F4F8, ()),
  (0x1F4F9, 0x1F4FC, ()),
  (0x1F4FD, 0x1F4FD, ()),
  (0x1F4FF, 0x1F502, ()),
  (0x1F503, 0x1F503, ()),
  (0x1F504, 0x1F507, ()),
  (0x1F508, 0x1F508, ()),
  (0x1F509, 0x1F509, ()),
  (0x1F50A, 0x1F514, ()),
  (0x1F515, 0x1F515, ()),
  (0x1F516, 0x1F52B, ()),
  (0x1F52C, 0x1F52D, ()),
  (0x1F52E, 0x1F53D, ()),
  (0x1F549, 0x1F54A, ()),
  (0x1F54B, 0x1F54E, ()),
  (0x1F550, 0x1F55B, ()),
  (0x1F55C, 0x1F567, ()),
  (0x1F56F, 0x1F570, ()),
  (0x1F573, 0x1F579, ()),
  (0x1F57A, 0x1F57A, ()),
  (0x1F587, 0x1F587, ()),
  (0x1F58A, 0x1F58D, ()),
  (0x1F590, 0x1F590, ()),
  (0x1F595, 0x1F596, ()),
  (0x1F5A4, 0x1F5A4, ()),
  (0x1F5A5, 0x1F5A5, ()),
  (0x1F5A8, 0x1F5A8, ()),
  (0x1F5B1, 0x1F5B2, ()),
  (0x1F5BC, 0x1F5BC, ()),
  (0x1F5C2, 0x1F5C4, ()),
  (0x1F5D1, 0x1F5D3, ()),
  (0x1F5DC, 0x1F5DE, ()),
  (0x1F5E1, 0x1F5E1, ()),
  (0x1F5E3, 0x1F5E3, ()),
  (0x1F5E8, 0x1F5E8, ()),
  (0x1F5EF, 0x1F5EF, ()),
  (0x1F5F3, 0x1F5F3, ()),
  (0x1F5FA, 0x1F5FA, ()),
  (0x1F5FB, 0x1F5FF, ()),
  (0x1F600, 0x1F600, ()),
  (0x1F601, 0x1F606, ()),
  (0x1F607, 0x1F608, ()),
  (0x1F609, 0x1F60D, ()),
  (0x1F60E, 0x1F60E, ()),
  (0x1F60F, 0x1F60F, ()),
  (0x1F610, 0x1F610, ()),
  (0x1F611, 0x1F611, ()),
  (0x1F612, 0x1F614, ()),
  (0x1F615, 0x1F615, ()),
  (0x1F616, 0x1F616, ()),
  (0x1F617, 0x1F617, ()),
  (0x1F618, 0x1F618, ()),
  (0x1F619, 0x1F619, ()),
  (0x1F61A, 0x1F61A, ()),
  (0x1F61B, 0x1F61B, ()),
  (0x1F61C, 0x1F61E, ()),
  (0x1F61F, 0x1F61F, ()),
  (0x1F620, 0x1F625, ()),
  (0x1F626, 0x1F627, ()),
  (0x1F628, 0x1F62B, ()),
  (0x1F62C, 0x1F62C, ()),
  (0x1F62D, 0x1F62D, ()),
  (0x1F62E, 0x1F62F, ()),
  (0x1F630, 0x1F633, ()),
  (0x1F634, 0x1F634, ()),
  (0x1F635, 0x1F635, ()),
  (0x1F636, 0x1F636, ()),
  (0x1F637, 0x1F640, ()),
  (0x1F641, 0x1F644, ()),
  (0x1F645, 0x1F64F, ()),
  (0x1F680, 0x1F680, ()),
  (0x1F681, 0x1F682, ()),
  (0x1F683, 0x1F685, ()),
  (0x1F686, 0x1F686, ()),
  (0x1F687, 0x1F687, ()),
  (0x1F688, 0x1F688, ()),
  (0x1F689, 0x1F689, ()),
  (0x1F68A, 0x1F68B, ()),
  (0x1F68C, 0x1F68C, ()),
  (0x1F68D, 0x1F68D, ()),
  (0x1F68E, 0x1F68E, ()),
  (0x1F68F, 0x1F68F, ()),
  (0x1F690, 0x1F690, ()),
  (0x1F691, 0x1F693, ())]
def extendedPictographic_2 : List (Nat × Nat × Unit) := [
  (0x1F694, 0x1F694, ()),
  (0x1F695, 0x1F695, ()),
  (0x1F696, 0x1F696, ()),
  (0x1F697, 0x1F697, ()),
  (0x1F698, 0x1F698, ()),
  (0x1F699, 0x1F69A, ()),
  (0x1F69B, 0x1F6A1, ()),
  (0x1F6A2, 0x1F6A2, ()),
  (0x1F6A3, 0x1F6A3, ()),
  (0x1F6A4, 0x1F6A5, ()),
  (0x1F6A6, 0x1F6A6, ()),
  (0x1F6A7, 0x1F6AD, ()),
  (0x1F6AE, 0x1F6B1, ()),
  (0x1F6B2, 0x1F6B2, ()),
  (0x1F6B3, 0x1F6B5, ()),
  (0x1F6B6, 0x1F6B6, ()),
  (0x1F6B7, 0x1F6B8, ()),
  (0x1F6B9, 0x1F6BE, ()),
  (0x1F6BF, 0x1F6BF, ()),
  (0x1F6C0, 0x1F6C0, ()),
  (0x1F6C1, 0x1F6C5, ()),
  (0x1F6CB, 0x1F6CB, ()),
  (0x1F6CC, 0x1F6CC, ()),
  (0x1F6CD, 0x1F6CF, ()),
  (0x1F6D0, 0x1F6D0, ()),
  (0x1F6D1, 0x1F6D2, ()),
  (0x1F6D5, 0x1F6D5, ()),
  (0x1F6D6, 0x1F6D7, ()),
  (0x1F6D8, 0x1F6D8, ()),
  (0x1F6D9, 0x1F6DB, ()),
  (0x1F6DC, 0x1F6DC, ()),
  (0x1F6DD, 0x1F6DF, ()),
  (0x1F6E0, 0x1F6E5, ()),
  (0x1F6E9, 0x1F6E9, ()),
  (0x1F6EB, 0x1F6EC, ()),
  (0x1F6ED, 0x1F6EF, ()),
  (0x1F6F0, 0x1F6F0, ()),
  (0x1F6F3, 0x1F6F3, ()),
  (0x1F6F4, 0x1F6F6, ()),
  (0x1F6F7, 0x1F6F8, ()),
  (0x1F6F9, 0x1F6F9, ()),
  (0x1F6FA, 0x1F6FA, ()),
  (0x1F6FB, 0x1F6FC, ()),
  (0x1F6FD, 0x1F6FF, ()),
  (0x1F7DA, 0x1F7DF, ()),
  (0x1F7E0, 0x1F7EB, ()),
  (0x1F7EC, 0x1F7EF, ()),
  (0x1F7F0, 0x1F7F0, ()),
  (0x1F7F1, 0x1F7FF, ()),
  (0x1F80C, 0x1F80F, ()),
  (0x1F848, 0x1F84F, ()),
  (0x1F85A, 0x1F85F, ()),
  (0x1F888, 0x1F88F, ()),
  (0x1F8AE, 0x1F8AF, ()),
  (0x1F8BC, 0x1F8BF, ()),
  (0x1F8C2, 0x1F8CF, ()),
  (0x1F8D9, 0x1F8FF, ()),
  (0x1F90C, 0x1F90C, ()),
  (0x1F90D, 0x1F90F, ()),
  (0x1F910, 0x1F918, ()),
  (0x1F919, 0x1F91E, ()),
  (0x1F91F, 0x1F91F, ()),
  (0x1F920, 0x1F927, ()),
  (0x1F928, 0x1F92F, ()),
  (0x1F930, 0x1F930, ()),
  (0x1F931, 0x1F932, ()),
  (0x1F933, 0x1F93A, ()),
  (0x1F93C, 0x1F93E, ()),
  (0x1F93F, 0x1F93F, ()),
  (0x1F940, 0x1F945, ()),
  (0x1F947, 0x1F94B, ()),
  (0x1F94C, 0x1F94C, ()),
  (0x1F94D, 0x1F94F, ()),
  (0x1F950, 0x1F95E, ()),
  (0x1F95F, 0x1F96B, ()),
  (0x1F96C, 0x1F970, ()),
  (0x1F971, 0x1F971, ()),
  (0x1F972, 0x1F972, ()),
  (0x1F973, 0x1F976, ()),
  (0x1F977, 0x1F978, ()),
  (0x1F979, 0x1F979, ()),
  (0x1F97A, 0x1F97A, ()),
  (0x1F97B, 0x1F97B, ()),
  (0x1F97C, 0x1F97F, ()),
  (0x1F980, 0x1F984, ()),
  (0x1F985, 0x1F991, ()),
  (0x1F992, 0x1F997, ()),
  (0x1F998, 0x1F9A2, ()),
  (0x1F9A3, 0x1F9A4, ()),
  (0x1F9A5, 0x1F9AA, ()),
  (0x1F9AB, 0x1F9AD, ()),
  (0x1F9AE, 0x1F9AF, ()),
  (0x1F9B0, 0x1F9B9, ()),
  (0x1F9BA, 0x1F9BF, ()),
  (0x1F9C0, 0x1F9C0, ()),
  (0x1F9C1, 0x1F9C2, ()),
  (0x1F9C3, 0x1F9CA, ()),
  (0x1F9CB, 0x1F9CB, ()),
  (0x1F9CC, 0x1F9CC, ()),
  (0x1F9CD, 0x1F9CF, ()),
  (0x1F9D0, 0x1F9E6, ()),
  (0x1F9E7, 0x1F9FF, ()),
  (0x1FA58, 0x1FA5F, ()),
  (0x1FA6E, 0x1FA6F, ()),
  (0x1FA70, 0x1FA73, ()),
  (0x1FA74, 0x1FA74, ()),
  (0x1FA75, 0x1FA77, ()),
  (0x1FA78, 0x1FA7A, ()),
  (0x1FA7B, 0x1FA7C, ()),
  (0x1FA7D, 0x1FA7F, ()),
  (0x1FA80, 0x1FA82, ()),
  (0x1FA83, 0x1FA86, ()),
  (0x1FA87, 0x1FA88, ()),
  (0x1FA89, 0x1FA89, ()),
  (0x1FA8A, 0x1FA8A, ()),
  (0x1FA8B, 0x1FA8D, ()),
  (0x1FA8E, 0x1FA8E, ()),
  (0x1FA8F, 0x1FA8F, ()),
  (0x1FA90, 0x1FA95, ()),
  (0x1FA96, 0x1FAA8, ()),
  (0x1FAA9, 0x1FAAC, ()),
  (0x1FAAD, 0x1FAAF, ()),
  (0x1FAB0, 0x1FAB6, ()),
  (0x1FAB7, 0x1FABA, ()),
  (0x1FABB, 0x1FABD, ()),
  (0x1FABE, 0x1FABE, ()),
  (0x1FABF, 0x1FABF, ()),
  (0x1FAC0, 0x1FAC2, ()),
  (0x1FAC3, 0x1FAC5, ()),
  (0x1FAC6, 0x1FAC6, ()),
  (0x1FAC7, 0x1FAC7, ()),
  (0x1FAC8, 0x1FAC8, ()),
  (0x1FAC9, 0x1FACC, ()),
  (0x1FACD, 0x1FACD, ()),
  (0x1FACE, 0x1FACF, ()),
  (0x1FAD0, 0x1FAD6, ()),
  (0x1FAD7, 0x1FAD9, ()),
  (0x1FADA, 0x1FADB, ()),
  (0x1FADC, 0x1FADC, ()),
  (0x1FADD, 0x1FADE, ()),
  (0x1FADF, 0x1FADF, ()),
  (0x1FAE0, 0x1FAE7, ()),
  (0x1FAE8, 0x1FAE8, ()),
  (0x1FAE9, 0x1FAE9, ()),
  (0x1FAEA, 0x1FAEA, ()),
  (0x1FAEB, 0x1FAEE, ()),
  (0x1FAEF, 0x1FAEF, ()),
  (0x1FAF0, 0x1FAF6, ()),
  (0x1FAF7, 0x1FAF8, ()),
  (0x1FAF9, 0x1FAFF, ())]
def extendedPictographic_3 : List (Nat × Nat × Unit) := [
  (0x1FC00, 0x1FFFD, ())]
/-- The data lines of ucd/emoji/emoji-data.txt with property Extended_Pictographic (451 lines). -/
def extendedPictographic : List (Nat × Nat × Unit) :=
  extendedPictographic_0 ++ extendedPictographic_1 ++ extendedPictographic_2 ++ extendedPictographic_3

def indicConjunctBreak_0 : List (Nat × Nat × InCB) := [
  (0x094D, 0x094D, .Linker),
  (0x09CD, 0x09CD, .Linker),
  (0x0ACD, 0x0ACD, .Linker),
  (0x0B4D, 0x0B4D, .Linker),
  (0x0C4D, 0x0C4D, .Linker),
  (0x0D4D, 0x0D4D, .Linker),
  (0x1039, 0x1039, .Linker),
  (0x17D2, 0x17D2, .Linker),
  (0x1A60, 0x1A60, .Linker),
  (0x1B44, 0x1B44, .Linker),
  (0x1BAB, 0x1BAB, .Linker),
  (0xA9C0, 0xA9C0, .Linker),
  (0xAAF6, 0xAAF6, .Linker),
  (0x10A3F, 0x10A3F, .Linker),
  (0x11133, 0x11133, .Linker),
  (0x113D0, 0x113D0, .Linker),
  (0x1193E, 0x1193E, .Linker),
  (0x11A47, 0x11A47, .Linker),
  (0x11A99, 0x11A99, .Linker),
  (0x11F42, 0x11F42, .Linker),
  (0x0915, 0x0939, .Consonant),
  (0x0958, 0x095F, .Consonant),
  (0x0978, 0x097F, .Consonant),
  (0x0995, 0x09A8, .Consonant),
  (0x09AA, 0x09B0, .Consonant),
  (0x09B2, 0x09B2, .Consonant),
  (0x09B6, 0x09B9, .Consonant),
  (0x09DC, 0x09DD, .Consonant),
  (0x09DF, 0x09DF, .Consonant),
  (0x09F0, 0x09F1, .Consonant),
  (0x0A95, 0x0AA8, .Consonant),
  (0x0AAA, 0x0AB0, .Consonant),
  (0x0AB2, 0x0AB3, .Consonant),
  (0x0AB5, 0x0AB9, .Consonant),
  (0x0AF9, 0x0AF9, .Consonant),
  (0x0B15, 0x0B28, .Consonant),
  (0x0B2A, 0x0B30, .Consonant),
  (0x0B32, 0x0B33, .Consonant),
  (0x0B35, 0x0B39, .Consonant),
  (0x0B5C, 0x0B5D, .Consonant),
  (0x0B5F, 0x0B5F, .Consonant),
  (0x0B71, 0x0B71, .Consonant),
  (0x0C15, 0x0C28, .Consonant),
  (0x0C2A, 0x0C39, .Consonant),
  (0x0C58, 0x0C5A, .Consonant),
  (0x0D15, 0x0D3A, .Consonant),
  (0x1000, 0x102A, .Consonant),
  (0x103F, 0x103F, .Consonant),
  (0x1050, 0x1055, .Consonant),
  (0x105A, 0x105D, .Consonant),
  (0x1061, 0x1061, .Consonant),
  (0x1065, 0x1066, .Consonant),
  (0x106E, 0x1070, .Consonant),
  (0x1075, 0x1081, .Consonant),
  (0x108E, 0x108E, .Consonant),
  (0x1780, 0x17B3, .Consonant),
  (0x1A20, 0x1A54, .Consonant),
  (0x1B0B, 0x1B0C, .Consonant),
  (0x1B13, 0x1B33, .Consonant),
  (0x1B45, 0x1B4C, .Consonant),
  (0x1B83, 0x1BA0, .Consonant),
  (0x1BAE, 0x1BAF, .Consonant),
  (0x1BBB, 0x1BBD, .Consonant),
  (0xA989, 0xA98B, .Consonant),
  (0xA98F, 0xA9B2, .Consonant),
  (0xA9E0, 0xA9E4, .Consonant),
  (0xA9E7, 0xA9EF, .Consonant),
  (0xA9FA, 0xA9FE, .Consonant),
  (0xAA60, 0xAA6F, .Consonant),
  (0xAA71, 0xAA73, .Consonant),
  (0xAA7A, 0xAA7A, .Consonant),
  (0xAA7E, 0xAA7F, .Consonant),
  (0xAAE0, 0xAAEA, .Consonant),
  (0xABC0, 0xABDA, .Consonant),
  (0x10A00, 0x10A00, .Consonant),
  (0x10A10, 0x10A13, .Consonant),
  (0x10A15, 0x10A17, .Consonant),
  (0x10A19, 0x10A35, .Consonant),
  (0x11103, 0x11126, .Consonant),
  (0x11144, 0x11144, .Consonant),
  (0x11147, 0x11147, .Consonant),
  (0x11380, 0x11389, .Consonant),
  (0x1138B, 0x1138B, .Consonant),
  (0x1138E, 0x1138E, .Consonant),
  (0x11390, 0x113B5, .Consonant),
  (0x11900, 0x11906, .Consonant),
  (0x11909, 0x11909, .Consonant),
  (0x1190C, 0x11913, .Consonant),
  (0x11915, 0x11916, .Consonant),
  (0x11918, 0x1192F, .Consonant),
  (0x11A00, 0x11A00, .Consonant),
  (0x11A0B, 0x11A32, .Consonant),
  (0x11A50, 0x11A50, .Consonant),
  (0x11A5C, 0x11A83, .Consonant),
  (0x11F04, 0x11F10, .Consonant),
  (0x11F12, 0x11F33, .Consonant),
  (0x0300, 0x036F, .Extend),
  (0x0483, 0x0487, .Extend),
  (0x0488, 0x0489, .Extend),
  (0x0591, 0x05BD, .Extend),
  (0x05BF, 0x05BF, .Extend),
  (0x05C1, 0x05C2, .Extend),
  (0x05C4, 0x05C5, .Extend),
  (0x05C7, 0x05C7, .Extend),
  (0x0610, 0x061A, .Extend),
  (0x064B, 0x065F, .Extend),
  (0x0670, 0x0670, .Extend),
  (0x06D6, 0x06DC, .Extend),
  (0x06DF, 0x06E4, .Extend),
  (0x06E7, 0x06E8, .Extend),
  (0x06EA, 0x06ED, .Extend),
  (0x0711, 0x0711, .Extend),
  (0x0730, 0x074A, .Extend),
  (0x07A6, 0x07B0, .Extend),
  (0x07EB, 0x07F3, .Extend),
  (0x07FD, 0x07FD, .Extend),
  (0x0816, 0x0819, .Extend),
  (0x081B, 0x0823, .Extend),
  (0x0825, 0x0827, .Extend),
  (0x0829, 0x082D, .Extend),
  (0x0859, 0x085B, .Extend),
  (0x0897, 0x089F, .Extend),
  (0x08CA, 0x08E1, .Extend),
  (0x08E3, 0x0902, .Extend),
  (0x093A, 0x093A, .Extend),
  (0x093C, 0x093C, .Extend),
  (0x0941, 0x0948, .Extend),
  (0x0951, 0x0957, .Extend),
  (0x0962, 0x0963, .Extend),
  (0x0981, 0x0981, .Extend),
  (0x09BC, 0x09BC, .Extend),
  (0x09BE, 0x09BE, .Extend),
  (0x09C1, 0x09C4, .Extend),
  (0x09D7, 0x09D7, .Extend),
  (0x09E2, 0x09E3, .Extend),
  (0x09FE, 0x09FE, .Extend),
  (0x0A01, 0x0A02, .Extend),
  (0x0A3C, 0x0A3C, .Extend),
  (0x0A41, 0x0A42, .Extend),
  (0x0A47, 0x0A48, .Extend),
  (0x0A4B, 0x0A4D, .Extend),
  (0x0A51, 0x0A51, .Extend),
  (0x0A70, 0x0A71, .Extend),
  (0x0A75, 0x0A75, .Extend),
  (0x0A81, 0x0A82, .Extend),
  (0x0ABC, 0x0ABC, .Extend),
  (0x0AC1, 0x0AC5, .Extend),
  (0x0AC7, 0x0AC8, .Extend),
  (0x0AE2, 0x0AE3, .Extend),
  (0x0AFA, 0x0AFF, .Extend)]
def indicConjunctBreak_1 : List (Nat × Nat × InCB) := [
  (0x0B01, 0x0B01, .Extend),
  (0x0B3C, 0x0B3C, .Extend),
  (0x0B3E, 0x0B3E, .Extend),
  (0x0B3F, 0x0B3F, .Extend),
  (0x0B41, 0x0B44, .Extend),
  (0x0B55, 0x0B56, .Extend),
  (0x0B57, 0x0B57, .Extend),
  (0x0B62, 0x0B63, .Extend),
  (0x0B82, 0x0B82, .Extend),
  (0x0BBE, 0x0BBE, .Extend),
  (0x0BC0, 0x0BC0, .Extend),
  (0x0BCD, 0x0BCD, .Extend),
  (0x0BD7, 0x0BD7, .Extend),
  (0x0C00, 0x0C00, .Extend),
  (0x0C04, 0x0C04, .Extend),
  (0x0C3C, 0x0C3C, .Extend),
  (0x0C3E, 0x0C40, .Extend),
  (0x0C46, 0x0C48, .Extend),
  (0x0C4A, 0x0C4C, .Extend),
  (0x0C55, 0x0C56, .Extend),
  (0x0C62, 0x0C63, .Extend),
  (0x0C81, 0x0C81, .Extend),
  (0x0CBC, 0x0CBC, .Extend),
  (0x0CBF, 0x0CBF, .Extend),
  (0x0CC0, 0x0CC0, .Extend),
  (0x0CC2, 0x0CC2, .Extend),
  (0x0CC6, 0x0CC6, .Extend),
  (0x0CC7, 0x0CC8, .Extend),
  (0x0CCA, 0x0CCB, .Extend),
  (0x0CCC, 0x0CCD, .Extend),
  (0x0CD5, 0x0CD6, .Extend),
  (0x0CE2, 0x0CE3, .Extend),
  (0x0D00, 0x0D01, .Extend),
  (0x0D3B, 0x0D3C, .Extend),
  (0x0D3E, 0x0D3E, .Extend),
  (0x0D41, 0x0D44, .Extend),
  (0x0D57, 0x0D57, .Extend),
  (0x0D62, 0x0D63, .Extend),
  (0x0D81, 0x0D81, .Extend),
  (0x0DCA, 0x0DCA, .Extend),
  (0x0DCF, 0x0DCF, .Extend),
  (0x0DD2, 0x0DD4, .Extend),
  (0x0DD6, 0x0DD6, .Extend),
  (0x0DDF, 0x0DDF, .Extend),
  (0x0E31, 0x0E31, .Extend),
  (0x0E34, 0x0E3A, .Extend),
  (0x0E47, 0x0E4E, .Extend),
  (0x0EB1, 0x0EB1, .Extend),
  (0x0EB4, 0x0EBC, .Extend),
  (0x0EC8, 0x0ECE, .Extend),
  (0x0F18, 0x0F19, .Extend),
  (0x0F35, 0x0F35, .Extend),
  (0x0F37, 0x0F37, .Extend),
  (0x0F39, 0x0F39, .Extend),
  (0x0F71, 0x0F7E, .Extend),
  (0x0F80, 0x0F84, .Extend),
  (0x0F86, 0x0F87, .Extend),
  (0x0F8D, 0x0F97, .Extend),
  (0x0F99, 0x0FBC, .Extend),
  (0x0FC6, 0x0FC6, .Extend),
  (0x102D, 0x1030, .Extend),
  (0x1032, 0x1037, .Extend),
  (0x103A, 0x103A, .Extend),
  (0x103D, 0x103E, .Extend),
  (0x1058, 0x1059, .Extend),
  (0x105E, 0x1060, .Extend),
  (0x1071, 0x1074, .Extend),
  (0x1082, 0x1082, .Extend),
  (0x1085, 0x1086, .Extend),
  (0x108D, 0x108D, .Extend),
  (0x109D, 0x109D, .Extend),
  (0x135D, 0x135F, .Extend),
  (0x1712, 0x1714, .Extend),
  (0x1715, 0x1715, .Extend),
  (0x1732, 0x1733, .Extend),
  (0x1734, 0x1734, .Extend),
  (0x1752, 0x1753, .Extend),
  (0x1772, 0x1773, .Extend),
  (0x17B4, 0x17B5, .Extend),
  (0x17B7, 0x17BD, .Extend),
  (0x17C6, 0x17C6, .Extend),
  (0x17C9, 0x17D1, .Extend),
  (0x17D3, 0x17D3, .Extend),
  (0x17DD, 0x17DD, .Extend),
  (0x180B, 0x180D, .Extend),
  (0x180F, 0x180F, .Extend),
  (0x1885, 0x1886, .Extend),
  (0x18A9, 0x18A9, .Extend),
  (0x1920, 0x1922, .Extend),
  (0x1927, 0x1928, .Extend),
  (0x1932, 0x1932, .Extend),
  (0x1939, 0x193B, .Extend),
  (0x1A17, 0x1A18, .Extend),
  (0x1A1B, 0x1A1B, .Extend),
  (0x1A56, 0x1A56, .Extend),
  (0x1A58, 0x1A5E, .Extend),
  (0x1A62, 0x1A62, .Extend),
  (0x1A65, 0x1A6C, .Extend),
  (0x1A73, 0x1A7C, .Extend),
  (0x1A7F, 0x1A7F, .Extend),
  (0x1AB0, 0x1ABD, .Extend),
  (0x1ABE, 0x1ABE, .Extend),
  (0x1ABF, 0x1ADD, .Extend),
  (0x1AE0, 0x1AEB, .Extend),
  (0x1B00, 0x1B03, .Extend),
  (0x1B34, 0x1B34, .Extend),
  (0x1B35, 0x1B35, .Extend),
  (0x1B36, 0x1B3A, .Extend),
  (0x1B3B, 0x1B3B, .Extend),
  (0x1B3C, 0x1B3C, .Extend),
  (0x1B3D, 0x1B3D, .Extend),
  (0x1B42, 0x1B42, .Extend),
  (0x1B43, 0x1B43, .Extend),
  (0x1B6B, 0x1B73, .Extend),
  (0x1B80, 0x1B81, .Extend),
  (0x1BA2, 0x1BA5, .Extend),
  (0x1BA8, 0x1BA9, .Extend),
  (0x1BAA, 0x1BAA, .Extend),
  (0x1BAC, 0x1BAD, .Extend),
  (0x1BE6, 0x1BE6, .Extend),
  (0x1BE8, 0x1BE9, .Extend),
  (0x1BED, 0x1BED, .Extend),
  (0x1BEF, 0x1BF1, .Extend),
  (0x1BF2, 0x1BF3, .Extend),
  (0x1C2C, 0x1C33, .Extend),
  (0x1C36, 0x1C37, .Extend),
  (0x1CD0, 0x1CD2, .Extend),
  (0x1CD4, 0x1CE0, .Extend),
  (0x1CE2, 0x1CE8, .Extend),
  (0x1CED, 0x1CED, .Extend),
  (0x1CF4, 0x1CF4, .Extend),
  (0x1CF8, 0x1CF9, .Extend),
  (0x1DC0, 0x1DFF, .Extend),
  (0x200D, 0x200D, .Extend),
  (0x20D0, 0x20DC, .Extend),
  (0x20DD, 0x20E0, .Extend),
  (0x20E1, 0x20E1, .Extend),
  (0x20E2, 0x20E4, .Extend),
  (0x20E5, 0x20F0, .Extend),
  (0x2CEF, 0x2CF1, .Extend),
  (0x2D7F, 0x2D7F, .Extend),
  (0x2DE0, 0x2DFF, .Extend),
  (0x302A, 0x302D, .Extend),
  (0x302E, 0x302F, .Extend),
  (0x3099, 0x309A, .Extend),
  (0xA66F, 0xA66F, .Extend),
  (0xA670, 0xA672, .Extend),
  (0xA674, 0xA67D, .Extend),
  (0xA69E, 0xA69F, .Extend),
  (0xA6F0, 0xA6F1, .Extend)]
def indicConjunctBreak_2 : List (Nat × Nat × InCB) := [
  (0xA802, 0xA802, .Extend),
  (0xA806, 0xA806, .Extend),
  (0xA80B, 0xA80B, .Extend),
  (0xA825, 0xA826, .Extend),
  (0xA82C, 0xA82C, .Extend),
  (0xA8C4, 0xA8C5, .Extend),
  (0xA8E0, 0xA8F1, .Extend),
  (0xA8FF, 0xA8FF, .Extend),
  (0xA926, 0xA92D, .Extend),
  (0xA947, 0xA951, .Extend),
  (0xA953, 0xA953, .Extend),
  (0xA980, 0xA982, .Extend),
  (0xA9B3, 0xA9B3, .Extend),
  (0xA9B6, 0xA9B9, .Extend),
  (0xA9BC, 0xA9BD, .Extend),
  (0xA9E5, 0xA9E5, .Extend),
  (0xAA29, 0xAA2E, .Extend),
  (0xAA31, 0xAA32, .Extend),
  (0xAA35, 0xAA36, .Extend),
  (0xAA43, 0xAA43, .Extend),
  (0xAA4C, 0xAA4C, .Extend),
  (0xAA7C, 0xAA7C, .Extend),
  (0xAAB0, 0xAAB0, .Extend),
  (0xAAB2, 0xAAB4, .Extend),
  (0xAAB7, 0xAAB8, .Extend),
  (0xAABE, 0xAABF, .Extend),
  (0xAAC1, 0xAAC1, .Extend),
  (0xAAEC, 0xAAED, .Extend),
  (0xABE5, 0xABE5, .Extend),
  (0xABE8, 0xABE8, .Extend),
  (0xABED, 0xABED, .Extend),
  (0xFB1E, 0xFB1E, .Extend),
  (0xFE00, 0xFE0F, .Extend),
  (0xFE20, 0xFE2F, .Extend),
  (0xFF9E, 0xFF9F, .Extend),
  (0x101FD, 0x101FD, .Extend),
  (0x102E0, 0x102E0, .Extend),
  (0x10376, 0x1037A, .Extend),
  (0x10A01, 0x10A03, .Extend),
  (0x10A05, 0x10A06, .Extend),
  (0x10A0C, 0x10A0F, .Extend),
  (0x10A38, 0x10A3A, .Extend),
  (0x10AE5, 0x10AE6, .Extend),
  (0x10D24, 0x10D27, .Extend),
  (0x10D69, 0x10D6D, .Extend),
  (0x10EAB, 0x10EAC, .Extend),
  (0x10EFA, 0x10EFF, .Extend),
  (0x10F46, 0x10F50, .Extend),
  (0x10F82, 0x10F85, .Extend),
  (0x11001, 0x11001, .Extend),
  (0x11038, 0x11046, .Extend),
  (0x11070, 0x11070, .Extend),
  (0x11073, 0x11074, .Extend),
  (0x1107F, 0x11081, .Extend),
  (0x110B3, 0x110B6, .Extend),
  (0x110B9, 0x110BA, .Extend),
  (0x110C2, 0x110C2, .Extend),
  (0x11100, 0x11102, .Extend),
  (0x11127, 0x1112B, .Extend),
  (0x1112D, 0x11132, .Extend),
  (0x11134, 0x11134, .Extend),
  (0x11173, 0x11173, .Extend),
  (0x11180, 0x11181, .Extend),
  (0x111B6, 0x111BE, .Extend),
  (0x111C0, 0x111C0, .Extend),
  (0x111C9, 0x111CC, .Extend),
  (0x111CF, 0x111CF, .Extend),
  (0x1122F, 0x11231, .Extend),
  (0x11234, 0x11234, .Extend),
  (0x11235, 0x11235, .Extend),
  (0x11236, 0x11237, .Extend),
  (0x1123E, 0x1123E, .Extend),
  (0x11241, 0x11241, .Extend),
  (0x112DF, 0x112DF, .Extend),
  (0x112E3, 0x112EA, .Extend),
  (0x11300, 0x11301, .Extend),
  (0x1133B, 0x1133C, .Extend),
  (0x1133E, 0x1133E, .Extend),
  (0x11340, 0x11340, .Extend),
  (0x1134D, 0x1134D, .Extend),
  (0x11357, 0x11357, .Extend),
  (0x11366, 0x1136C, .Extend),
  (0x11370, 0x11374, .Extend),
  (0x113B8, 0x113B8, .Extend),
  (0x113BB, 0x113C0, .Extend),
  (0x113C2, 0x113C2, .Extend),
  (0x113C5, 0x113C5, .Extend),
  (0x113C7, 0x113C9, .Extend),
  (0x113CE, 0x113CE, .Extend),
  (0x113CF, 0x113CF, .Extend),
  (0x113D2, 0x113D2, .Extend),
  (0x113E1, 0x113E2, .Extend),
  (0x11438, 0x1143F, .Extend),
  (0x11442, 0x11444, .Extend),
  (0x11446, 0x11446, .Extend),
  (0x1145E, 0x1145E, .Extend),
  (0x114B0, 0x114B0, .Extend),
  (0x114B3, 0x114B8, .Extend),
  (0x114BA, 0x114BA, .Extend),
  (0x114BD, 0x114BD, .Extend),
  (0x114BF, 0x114C0, .Extend),
  (0x114C2, 0x114C3, .Extend),
  (0x115AF, 0x115AF, .Extend),
  (0x115B2, 0x115B5, .Extend),
  (0x115BC, 0x115BD, .Extend),
  (0x115BF, 0x115C0, .Extend),
  (0x115DC, 0x115DD, .Extend),
  (0x11633, 0x1163A, .Extend),
  (0x1163D, 0x1163D, .Extend),
  (0x1163F, 0x11640, .Extend),
  (0x116AB, 0x116AB, .Extend),
  (0x116AD, 0x116AD, .Extend),
  (0x116B0, 0x116B5, .Extend),
  (0x116B6, 0x116B6, .Extend),
  (0x116B7, 0x116B7, .Extend),
  (0x1171D, 0x1171D, .Extend),
  (0x1171F, 0x1171F, .Extend),
  (0x11722, 0x11725, .Extend),
  (0x11727, 0x1172B, .Extend),
  (0x1182F, 0x11837, .Extend),
  (0x11839, 0x1183A, .Extend),
  (0x11930, 0x11930, .Extend),
  (0x1193B, 0x1193C, .Extend),
  (0x1193D, 0x1193D, .Extend),
  (0x11943, 0x11943, .Extend),
  (0x119D4, 0x119D7, .Extend),
  (0x119DA, 0x119DB, .Extend),
  (0x119E0, 0x119E0, .Extend),
  (0x11A01, 0x11A0A, .Extend),
  (0x11A33, 0x11A38, .Extend),
  (0x11A3B, 0x11A3E, .Extend),
  (0x11A51, 0x11A56, .Extend),
  (0x11A59, 0x11A5B, .Extend),
  (0x11A8A, 0x11A96, .Extend),
  (0x11A98, 0x11A98, .Extend),
  (0x11B60, 0x11B60, .Extend),
  (0x11B62, 0x11B64, .Extend),
  (0x11B66, 0x11B66, .Extend),
  (0x11C30, 0x11C36, .Extend),
  (0x11C38, 0x11C3D, .Extend),
  (0x11C3F, 0x11C3F, .Extend),
  (0x11C92, 0x11CA7, .Extend),
  (0x11CAA, 0x11CB0, .Extend),
  (0x11CB2, 0x11CB3, .Extend),
  (0x11CB5, 0x11CB6, .Extend),
  (0x11D31, 0x11D36, .Extend),
  (0x11D3A, 0x11D3A, .Extend),
  (0x11D3C, 0x11D3D, .Extend),
  (0x11D3F, 0x11D45, .Extend),
  (0x11D47, 0x11D47, .Extend)]
def indicConjunctBreak_3 : List (Nat × Nat × InCB) := [
  (0x11D90, 0x11D91, .Extend),
  (0x11D95, 0x11D95, .Extend),
  (0x11D97, 0x11D97, .Extend),
  (0x11EF3, 0x11EF4, .Extend),
  (0x11F00, 0x11F01, .Extend),
  (0x11F36, 0x11F3A, .Extend),
  (0x11F40, 0x11F40, .Extend),
  (0x11F41, 0x11F41, .Extend),
  (0x11F5A, 0x11F5A, .Extend),
  (0x13440, 0x13440, .Extend),
  (0x13447, 0x13455, .Extend),
  (0x1611E, 0x16129, .Extend),
  (0x1612D, 0x1612F, .Extend),
  (0x16AF0, 0x16AF4, .Extend),
  (0x16B30, 0x16B36, .Extend),
  (0x16F4F, 0x16F4F, .Extend),
  (0x16F8F, 0x16F92, .Extend),
  (0x16FE4, 0x16FE4, .Extend),
  (0x16FF0, 0x16FF1, .Extend),
  (0x1BC9D, 0x1BC9E, .Extend),
  (0x1CF00, 0x1CF2D, .Extend),
  (0x1CF30, 0x1CF46, .Extend),
  (0x1D165, 0x1D166, .Extend),
  (0x1D167, 0x1D169, .Extend),
  (0x1D16D, 0x1D172, .Extend),
  (0x1D17B, 0x1D182, .Extend),
  (0x1D185, 0x1D18B, .Extend),
  (0x1D1AA, 0x1D1AD, .Extend),
  (0x1D242, 0x1D244, .Extend),
  (0x1DA00, 0x1DA36, .Extend),
  (0x1DA3B, 0x1DA6C, .Extend),
  (0x1DA75, 0x1DA75, .Extend),
  (0x1DA84, 0x1DA84, .Extend),
  (0x1DA9B, 0x1DA9F, .Extend),
  (0x1DAA1, 0x1DAAF, .Extend),
  (0x1E000, 0x1E006, .Extend),
  (0x1E008, 0x1E018, .Extend),
  (0x1E01B, 0x1E021, .Extend),
  (0x1E023, 0x1E024, .Extend),
  (0x1E026, 0x1E02A, .Extend),
  (0x1E08F, 0x1E08F, .Extend),
  (0x1E130, 0x1E136, .Extend),
  (0x1E2AE, 0x1E2AE, .Extend),
  (0x1E2EC, 0x1E2EF, .Extend),
  (0x1E4EC, 0x1E4EF, .Extend),
  (0x1E5EE, 0x1E5EF, .Extend),
  (0x1E6E3, 0x1E6E3, .Extend),
  (0x1E6E6, 0x1E6E6, .Extend),
  (0x1E6EE, 0x1E6EF, .Extend),
  (0x1E6F5, 0x1E6F5, .Extend),
  (0x1E8D0, 0x1E8D6, .Extend),
  (0x1E944, 0x1E94A, .Extend),
  (0x1F3FB, 0x1F3FF, .Extend),
  (0xE0020, 0xE007F, .Extend),
  (0xE0100, 0xE01EF, .Extend)]
/-- The data lines of ucd/DerivedCoreProperties.txt with property InCB (505 lines). -/
def indicConjunctBreak : List (Nat × Nat × InCB) :=
  indicConjunctBreak_0 ++ indicConjunctBreak_1 ++ indicConjunctBreak_2 ++ indicConjunctBreak_3

end Textseg.Spec
