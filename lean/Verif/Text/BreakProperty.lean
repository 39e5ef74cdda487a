import Verif.Model.Text
/-!
# The text of textseg/internal/charprops/ucd/auxiliary/GraphemeBreakProperty.txt

Generated by tools/gen_text.py.
-/

namespace Textseg.Text

/-- lines 1-64 -/
def breakProperty0 : List Nat := [
text! "# GraphemeBreakProperty-17.0.0.txt",
text! "# Date: 2025-06-30, 06:20:23 GMT",
text! "# © 2025 Unicode®, Inc.",
text! "# Unicode and the Unicode Logo are registered trademarks of Unicode, Inc. in the U.S. and other countries.",
text! "# For terms of use and license, see https://www.unicode.org/terms_of_use.html",
text! "#",
text! "# Unicode Character Database",
text! "#   For documentation, see https://www.unicode.org/reports/tr44/",
text! "",
text! "# ================================================",
text! "",
text! "# Property:\tGrapheme_Cluster_Break",
text! "",
text! "#  All code points not explicitly listed for Grapheme_Cluster_Break",
text! "#  have the value Other (XX).",
text! "",
text! "# @missing: 0000..10FFFF; Other",
text! "",
text! "# ================================================",
text! "",
text! "0600..0605    ; Prepend # Cf   [6] ARABIC NUMBER SIGN..ARABIC NUMBER MARK ABOVE",
text! "06DD          ; Prepend # Cf       ARABIC END OF AYAH",
text! "070F          ; Prepend # Cf       SYRIAC ABBREVIATION MARK",
text! "0890..0891    ; Prepend # Cf   [2] ARABIC POUND MARK ABOVE..ARABIC PIASTRE MARK ABOVE",
text! "08E2          ; Prepend # Cf       ARABIC DISPUTED END OF AYAH",
text! "0D4E          ; Prepend # Lo       MALAYALAM LETTER DOT REPH",
text! "110BD         ; Prepend # Cf       KAITHI NUMBER SIGN",
text! "110CD         ; Prepend # Cf       KAITHI NUMBER SIGN ABOVE",
text! "111C2..111C3  ; Prepend # Lo   [2] SHARADA SIGN JIHVAMULIYA..SHARADA SIGN UPADHMANIYA",
text! "113D1         ; Prepend # Lo       TULU-TIGALARI REPHA",
text! "1193F         ; Prepend # Lo       DIVES AKURU PREFIXED NASAL SIGN",
text! "11941         ; Prepend # Lo       DIVES AKURU INITIAL RA",
text! "11A84..11A89  ; Prepend # Lo   [6] SOYOMBO SIGN JIHVAMULIYA..SOYOMBO CLUSTER-INITIAL LETTER SA",
text! "11D46         ; Prepend # Lo       MASARAM GONDI REPHA",
text! "11F02         ; Prepend # Lo       KAWI SIGN REPHA",
text! "",
text! "# Total code points: 27",
text! "",
text! "# ================================================",
text! "",
text! "000D          ; CR # Cc       <control-000D>",
text! "",
text! "# Total code points: 1",
text! "",
text! "# ================================================",
text! "",
text! "000A          ; LF # Cc       <control-000A>",
text! "",
text! "# Total code points: 1",
text! "",
text! "# ================================================",
text! "",
text! "0000..0009    ; Control # Cc  [10] <control-0000>..<control-0009>",
text! "000B..000C    ; Control # Cc   [2] <control-000B>..<control-000C>",
text! "000E..001F    ; Control # Cc  [18] <control-000E>..<control-001F>",
text! "007F..009F    ; Control # Cc  [33] <control-007F>..<control-009F>",
text! "00AD          ; Control # Cf       SOFT HYPHEN",
text! "061C          ; Control # Cf       ARABIC LETTER MARK",
text! "180E          ; Control # Cf       MONGOLIAN VOWEL SEPARATOR",
text! "200B          ; Control # Cf       ZERO WIDTH SPACE",
text! "200E..200F    ; Control # Cf   [2] LEFT-TO-RIGHT MARK..RIGHT-TO-LEFT MARK",
text! "2028          ; Control # Zl       LINE SEPARATOR",
text! "2029          ; Control # Zp       PARAGRAPH SEPARATOR",
text! "202A..202E    ; Control # Cf   [5] LEFT-TO-RIGHT EMBEDDING..RIGHT-TO-LEFT OVERRIDE"]

/-- lines 65-128 -/
def breakProperty1 : List Nat := [
text! "2060..2064    ; Control # Cf   [5] WORD JOINER..INVISIBLE PLUS",
text! "2065          ; Control # Cn       <reserved-2065>",
text! "2066..206F    ; Control # Cf  [10] LEFT-TO-RIGHT ISOLATE..NOMINAL DIGIT SHAPES",
text! "FEFF          ; Control # Cf       ZERO WIDTH NO-BREAK SPACE",
text! "FFF0..FFF8    ; Control # Cn   [9] <reserved-FFF0>..<reserved-FFF8>",
text! "FFF9..FFFB    ; Control # Cf   [3] INTERLINEAR ANNOTATION ANCHOR..INTERLINEAR ANNOTATION TERMINATOR",
text! "13430..1343F  ; Control # Cf  [16] EGYPTIAN HIEROGLYPH VERTICAL JOINER..EGYPTIAN HIEROGLYPH END WALLED ENCLOSURE",
text! "1BCA0..1BCA3  ; Control # Cf   [4] SHORTHAND FORMAT LETTER OVERLAP..SHORTHAND FORMAT UP STEP",
text! "1D173..1D17A  ; Control # Cf   [8] MUSICAL SYMBOL BEGIN BEAM..MUSICAL SYMBOL END PHRASE",
text! "E0000         ; Control # Cn       <reserved-E0000>",
text! "E0001         ; Control # Cf       LANGUAGE TAG",
text! "E0002..E001F  ; Control # Cn  [30] <reserved-E0002>..<reserved-E001F>",
text! "E0080..E00FF  ; Control # Cn [128] <reserved-E0080>..<reserved-E00FF>",
text! "E01F0..E0FFF  ; Control # Cn [3600] <reserved-E01F0>..<reserved-E0FFF>",
text! "",
text! "# Total code points: 3893",
text! "",
text! "# ================================================",
text! "",
text! "0300..036F    ; Extend # Mn [112] COMBINING GRAVE ACCENT..COMBINING LATIN SMALL LETTER X",
text! "0483..0487    ; Extend # Mn   [5] COMBINING CYRILLIC TITLO..COMBINING CYRILLIC POKRYTIE",
text! "0488..0489    ; Extend # Me   [2] COMBINING CYRILLIC HUNDRED THOUSANDS SIGN..COMBINING CYRILLIC MILLIONS SIGN",
text! "0591..05BD    ; Extend # Mn  [45] HEBREW ACCENT ETNAHTA..HEBREW POINT METEG",
text! "05BF          ; Extend # Mn       HEBREW POINT RAFE",
text! "05C1..05C2    ; Extend # Mn   [2] HEBREW POINT SHIN DOT..HEBREW POINT SIN DOT",
text! "05C4..05C5    ; Extend # Mn   [2] HEBREW MARK UPPER DOT..HEBREW MARK LOWER DOT",
text! "05C7          ; Extend # Mn       HEBREW POINT QAMATS QATAN",
text! "0610..061A    ; Extend # Mn  [11] ARABIC SIGN SALLALLAHOU ALAYHE WASSALLAM..ARABIC SMALL KASRA",
text! "064B..065F    ; Extend # Mn  [21] ARABIC FATHATAN..ARABIC WAVY HAMZA BELOW",
text! "0670          ; Extend # Mn       ARABIC LETTER SUPERSCRIPT ALEF",
text! "06D6..06DC    ; Extend # Mn   [7] ARABIC SMALL HIGH LIGATURE SAD WITH LAM WITH ALEF MAKSURA..ARABIC SMALL HIGH SEEN",
text! "06DF..06E4    ; Extend # Mn   [6] ARABIC SMALL HIGH ROUNDED ZERO..ARABIC SMALL HIGH MADDA",
text! "06E7..06E8    ; Extend # Mn   [2] ARABIC SMALL HIGH YEH..ARABIC SMALL HIGH NOON",
text! "06EA..06ED    ; Extend # Mn   [4] ARABIC EMPTY CENTRE LOW STOP..ARABIC SMALL LOW MEEM",
text! "0711          ; Extend # Mn       SYRIAC LETTER SUPERSCRIPT ALAPH",
text! "0730..074A    ; Extend # Mn  [27] SYRIAC PTHAHA ABOVE..SYRIAC BARREKH",
text! "07A6..07B0    ; Extend # Mn  [11] THAANA ABAFILI..THAANA SUKUN",
text! "07EB..07F3    ; Extend # Mn   [9] NKO COMBINING SHORT HIGH TONE..NKO COMBINING DOUBLE DOT ABOVE",
text! "07FD          ; Extend # Mn       NKO DANTAYALAN",
text! "0816..0819    ; Extend # Mn   [4] SAMARITAN MARK IN..SAMARITAN MARK DAGESH",
text! "081B..0823    ; Extend # Mn   [9] SAMARITAN MARK EPENTHETIC YUT..SAMARITAN VOWEL SIGN A",
text! "0825..0827    ; Extend # Mn   [3] SAMARITAN VOWEL SIGN SHORT A..SAMARITAN VOWEL SIGN U",
text! "0829..082D    ; Extend # Mn   [5] SAMARITAN VOWEL SIGN LONG I..SAMARITAN MARK NEQUDAA",
text! "0859..085B    ; Extend # Mn   [3] MANDAIC AFFRICATION MARK..MANDAIC GEMINATION MARK",
text! "0897..089F    ; Extend # Mn   [9] ARABIC PEPET..ARABIC HALF MADDA OVER MADDA",
text! "08CA..08E1    ; Extend # Mn  [24] ARABIC SMALL HIGH FARSI YEH..ARABIC SMALL HIGH SIGN SAFHA",
text! "08E3..0902    ; Extend # Mn  [32] ARABIC TURNED DAMMA BELOW..DEVANAGARI SIGN ANUSVARA",
text! "093A          ; Extend # Mn       DEVANAGARI VOWEL SIGN OE",
text! "093C          ; Extend # Mn       DEVANAGARI SIGN NUKTA",
text! "0941..0948    ; Extend # Mn   [8] DEVANAGARI VOWEL SIGN U..DEVANAGARI VOWEL SIGN AI",
text! "094D          ; Extend # Mn       DEVANAGARI SIGN VIRAMA",
text! "0951..0957    ; Extend # Mn   [7] DEVANAGARI STRESS SIGN UDATTA..DEVANAGARI VOWEL SIGN UUE",
text! "0962..0963    ; Extend # Mn   [2] DEVANAGARI VOWEL SIGN VOCALIC L..DEVANAGARI VOWEL SIGN VOCALIC LL",
text! "0981          ; Extend # Mn       BENGALI SIGN CANDRABINDU",
text! "09BC          ; Extend # Mn       BENGALI SIGN NUKTA",
text! "09BE          ; Extend # Mc       BENGALI VOWEL SIGN AA",
text! "09C1..09C4    ; Extend # Mn   [4] BENGALI VOWEL SIGN U..BENGALI VOWEL SIGN VOCALIC RR",
text! "09CD          ; Extend # Mn       BENGALI SIGN VIRAMA",
text! "09D7          ; Extend # Mc       BENGALI AU LENGTH MARK",
text! "09E2..09E3    ; Extend # Mn   [2] BENGALI VOWEL SIGN VOCALIC L..BENGALI VOWEL SIGN VOCALIC LL",
text! "09FE          ; Extend # Mn       BENGALI SANDHI MARK",
text! "0A01..0A02    ; Extend # Mn   [2] GURMUKHI SIGN ADAK BINDI..GURMUKHI SIGN BINDI",
text! "0A3C          ; Extend # Mn       GURMUKHI SIGN NUKTA",
text! "0A41..0A42    ; Extend # Mn   [2] GURMUKHI VOWEL SIGN U..GURMUKHI VOWEL SIGN UU"]

/-- lines 129-192 -/
def breakProperty2 : List Nat := [
text! "0A47..0A48    ; Extend # Mn   [2] GURMUKHI VOWEL SIGN EE..GURMUKHI VOWEL SIGN AI",
text! "0A4B..0A4D    ; Extend # Mn   [3] GURMUKHI VOWEL SIGN OO..GURMUKHI SIGN VIRAMA",
text! "0A51          ; Extend # Mn       GURMUKHI SIGN UDAAT",
text! "0A70..0A71    ; Extend # Mn   [2] GURMUKHI TIPPI..GURMUKHI ADDAK",
text! "0A75          ; Extend # Mn       GURMUKHI SIGN YAKASH",
text! "0A81..0A82    ; Extend # Mn   [2] GUJARATI SIGN CANDRABINDU..GUJARATI SIGN ANUSVARA",
text! "0ABC          ; Extend # Mn       GUJARATI SIGN NUKTA",
text! "0AC1..0AC5    ; Extend # Mn   [5] GUJARATI VOWEL SIGN U..GUJARATI VOWEL SIGN CANDRA E",
text! "0AC7..0AC8    ; Extend # Mn   [2] GUJARATI VOWEL SIGN E..GUJARATI VOWEL SIGN AI",
text! "0ACD          ; Extend # Mn       GUJARATI SIGN VIRAMA",
text! "0AE2..0AE3    ; Extend # Mn   [2] GUJARATI VOWEL SIGN VOCALIC L..GUJARATI VOWEL SIGN VOCALIC LL",
text! "0AFA..0AFF    ; Extend # Mn   [6] GUJARATI SIGN SUKUN..GUJARATI SIGN TWO-CIRCLE NUKTA ABOVE",
text! "0B01          ; Extend # Mn       ORIYA SIGN CANDRABINDU",
text! "0B3C          ; Extend # Mn       ORIYA SIGN NUKTA",
text! "0B3E          ; Extend # Mc       ORIYA VOWEL SIGN AA",
text! "0B3F          ; Extend # Mn       ORIYA VOWEL SIGN I",
text! "0B41..0B44    ; Extend # Mn   [4] ORIYA VOWEL SIGN U..ORIYA VOWEL SIGN VOCALIC RR",
text! "0B4D          ; Extend # Mn       ORIYA SIGN VIRAMA",
text! "0B55..0B56    ; Extend # Mn   [2] ORIYA SIGN OVERLINE..ORIYA AI LENGTH MARK",
text! "0B57          ; Extend # Mc       ORIYA AU LENGTH MARK",
text! "0B62..0B63    ; Extend # Mn   [2] ORIYA VOWEL SIGN VOCALIC L..ORIYA VOWEL SIGN VOCALIC LL",
text! "0B82          ; Extend # Mn       TAMIL SIGN ANUSVARA",
text! "0BBE          ; Extend # Mc       TAMIL VOWEL SIGN AA",
text! "0BC0          ; Extend # Mn       TAMIL VOWEL SIGN II",
text! "0BCD          ; Extend # Mn       TAMIL SIGN VIRAMA",
text! "0BD7          ; Extend # Mc       TAMIL AU LENGTH MARK",
text! "0C00          ; Extend # Mn       TELUGU SIGN COMBINING CANDRABINDU ABOVE",
text! "0C04          ; Extend # Mn       TELUGU SIGN COMBINING ANUSVARA ABOVE",
text! "0C3C          ; Extend # Mn       TELUGU SIGN NUKTA",
text! "0C3E..0C40    ; Extend # Mn   [3] TELUGU VOWEL SIGN AA..TELUGU VOWEL SIGN II",
text! "0C46..0C48    ; Extend # Mn   [3] TELUGU VOWEL SIGN E..TELUGU VOWEL SIGN AI",
text! "0C4A..0C4D    ; Extend # Mn   [4] TELUGU VOWEL SIGN O..TELUGU SIGN VIRAMA",
text! "0C55..0C56    ; Extend # Mn   [2] TELUGU LENGTH MARK..TELUGU AI LENGTH MARK",
text! "0C62..0C63    ; Extend # Mn   [2] TELUGU VOWEL SIGN VOCALIC L..TELUGU VOWEL SIGN VOCALIC LL",
text! "0C81          ; Extend # Mn       KANNADA SIGN CANDRABINDU",
text! "0CBC          ; Extend # Mn       KANNADA SIGN NUKTA",
text! "0CBF          ; Extend # Mn       KANNADA VOWEL SIGN I",
text! "0CC0          ; Extend # Mc       KANNADA VOWEL SIGN II",
text! "0CC2          ; Extend # Mc       KANNADA VOWEL SIGN UU",
text! "0CC6          ; Extend # Mn       KANNADA VOWEL SIGN E",
text! "0CC7..0CC8    ; Extend # Mc   [2] KANNADA VOWEL SIGN EE..KANNADA VOWEL SIGN AI",
text! "0CCA..0CCB    ; Extend # Mc   [2] KANNADA VOWEL SIGN O..KANNADA VOWEL SIGN OO",
text! "0CCC..0CCD    ; Extend # Mn   [2] KANNADA VOWEL SIGN AU..KANNADA SIGN VIRAMA",
text! "0CD5..0CD6    ; Extend # Mc   [2] KANNADA LENGTH MARK..KANNADA AI LENGTH MARK",
text! "0CE2..0CE3    ; Extend # Mn   [2] KANNADA VOWEL SIGN VOCALIC L..KANNADA VOWEL SIGN VOCALIC LL",
text! "0D00..0D01    ; Extend # Mn   [2] MALAYALAM SIGN COMBINING ANUSVARA ABOVE..MALAYALAM SIGN CANDRABINDU",
text! "0D3B..0D3C    ; Extend # Mn   [2] MALAYALAM SIGN VERTICAL BAR VIRAMA..MALAYALAM SIGN CIRCULAR VIRAMA",
text! "0D3E          ; Extend # Mc       MALAYALAM VOWEL SIGN AA",
text! "0D41..0D44    ; Extend # Mn   [4] MALAYALAM VOWEL SIGN U..MALAYALAM VOWEL SIGN VOCALIC RR",
text! "0D4D          ; Extend # Mn       MALAYALAM SIGN VIRAMA",
text! "0D57          ; Extend # Mc       MALAYALAM AU LENGTH MARK",
text! "0D62..0D63    ; Extend # Mn   [2] MALAYALAM VOWEL SIGN VOCALIC L..MALAYALAM VOWEL SIGN VOCALIC LL",
text! "0D81          ; Extend # Mn       SINHALA SIGN CANDRABINDU",
text! "0DCA          ; Extend # Mn       SINHALA SIGN AL-LAKUNA",
text! "0DCF          ; Extend # Mc       SINHALA VOWEL SIGN AELA-PILLA",
text! "0DD2..0DD4    ; Extend # Mn   [3] SINHALA VOWEL SIGN KETTI IS-PILLA..SINHALA VOWEL SIGN KETTI PAA-PILLA",
text! "0DD6          ; Extend # Mn       SINHALA VOWEL SIGN DIGA PAA-PILLA",
text! "0DDF          ; Extend # Mc       SINHALA VOWEL SIGN GAYANUKITTA",
text! "0E31          ; Extend # Mn       THAI CHARACTER MAI HAN-AKAT",
text! "0E34..0E3A    ; Extend # Mn   [7] THAI CHARACTER SARA I..THAI CHARACTER PHINTHU",
text! "0E47..0E4E    ; Extend # Mn   [8] THAI CHARACTER MAITAIKHU..THAI CHARACTER YAMAKKAN",
text! "0EB1          ; Extend # Mn       LAO VOWEL SIGN MAI KAN",
text! "0EB4..0EBC    ; Extend # Mn   [9] LAO VOWEL SIGN I..LAO SEMIVOWEL SIGN LO",
text! "0EC8..0ECE    ; Extend # Mn   [7] LAO TONE MAI EK..LAO YAMAKKAN"]

/-- lines 193-256 -/
def breakProperty3 : List Nat := [
text! "0F18..0F19    ; Extend # Mn   [2] TIBETAN ASTROLOGICAL SIGN -KHYUD PA..TIBETAN ASTROLOGICAL SIGN SDONG TSHUGS",
text! "0F35          ; Extend # Mn       TIBETAN MARK NGAS BZUNG NYI ZLA",
text! "0F37          ; Extend # Mn       TIBETAN MARK NGAS BZUNG SGOR RTAGS",
text! "0F39          ; Extend # Mn       TIBETAN MARK TSA -PHRU",
text! "0F71..0F7E    ; Extend # Mn  [14] TIBETAN VOWEL SIGN AA..TIBETAN SIGN RJES SU NGA RO",
text! "0F80..0F84    ; Extend # Mn   [5] TIBETAN VOWEL SIGN REVERSED I..TIBETAN MARK HALANTA",
text! "0F86..0F87    ; Extend # Mn   [2] TIBETAN SIGN LCI RTAGS..TIBETAN SIGN YANG RTAGS",
text! "0F8D..0F97    ; Extend # Mn  [11] TIBETAN SUBJOINED SIGN LCE TSA CAN..TIBETAN SUBJOINED LETTER JA",
text! "0F99..0FBC    ; Extend # Mn  [36] TIBETAN SUBJOINED LETTER NYA..TIBETAN SUBJOINED LETTER FIXED-FORM RA",
text! "0FC6          ; Extend # Mn       TIBETAN SYMBOL PADMA GDAN",
text! "102D..1030    ; Extend # Mn   [4] MYANMAR VOWEL SIGN I..MYANMAR VOWEL SIGN UU",
text! "1032..1037    ; Extend # Mn   [6] MYANMAR VOWEL SIGN AI..MYANMAR SIGN DOT BELOW",
text! "1039..103A    ; Extend # Mn   [2] MYANMAR SIGN VIRAMA..MYANMAR SIGN ASAT",
text! "103D..103E    ; Extend # Mn   [2] MYANMAR CONSONANT SIGN MEDIAL WA..MYANMAR CONSONANT SIGN MEDIAL HA",
text! "1058..1059    ; Extend # Mn   [2] MYANMAR VOWEL SIGN VOCALIC L..MYANMAR VOWEL SIGN VOCALIC LL",
text! "105E..1060    ; Extend # Mn   [3] MYANMAR CONSONANT SIGN MON MEDIAL NA..MYANMAR CONSONANT SIGN MON MEDIAL LA",
text! "1071..1074    ; Extend # Mn   [4] MYANMAR VOWEL SIGN GEBA KAREN I..MYANMAR VOWEL SIGN KAYAH EE",
text! "1082          ; Extend # Mn       MYANMAR CONSONANT SIGN SHAN MEDIAL WA",
text! "1085..1086    ; Extend # Mn   [2] MYANMAR VOWEL SIGN SHAN E ABOVE..MYANMAR VOWEL SIGN SHAN FINAL Y",
text! "108D          ; Extend # Mn       MYANMAR SIGN SHAN COUNCIL EMPHATIC TONE",
text! "109D          ; Extend # Mn       MYANMAR VOWEL SIGN AITON AI",
text! "135D..135F    ; Extend # Mn   [3] ETHIOPIC COMBINING GEMINATION AND VOWEL LENGTH MARK..ETHIOPIC COMBINING GEMINATION MARK",
text! "1712..1714    ; Extend # Mn   [3] TAGALOG VOWEL SIGN I..TAGALOG SIGN VIRAMA",
text! "1715          ; Extend # Mc       TAGALOG SIGN PAMUDPOD",
text! "1732..1733    ; Extend # Mn   [2] HANUNOO VOWEL SIGN I..HANUNOO VOWEL SIGN U",
text! "1734          ; Extend # Mc       HANUNOO SIGN PAMUDPOD",
text! "1752..1753    ; Extend # Mn   [2] BUHID VOWEL SIGN I..BUHID VOWEL SIGN U",
text! "1772..1773    ; Extend # Mn   [2] TAGBANWA VOWEL SIGN I..TAGBANWA VOWEL SIGN U",
text! "17B4..17B5    ; Extend # Mn   [2] KHMER VOWEL INHERENT AQ..KHMER VOWEL INHERENT AA",
text! "17B7..17BD    ; Extend # Mn   [7] KHMER VOWEL SIGN I..KHMER VOWEL SIGN UA",
text! "17C6          ; Extend # Mn       KHMER SIGN NIKAHIT",
text! "17C9..17D3    ; Extend # Mn  [11] KHMER SIGN MUUSIKATOAN..KHMER SIGN BATHAMASAT",
text! "17DD          ; Extend # Mn       KHMER SIGN ATTHACAN",
text! "180B..180D    ; Extend # Mn   [3] MONGOLIAN FREE VARIATION SELECTOR ONE..MONGOLIAN FREE VARIATION SELECTOR THREE",
text! "180F          ; Extend # Mn       MONGOLIAN FREE VARIATION SELECTOR FOUR",
text! "1885..1886    ; Extend # Mn   [2] MONGOLIAN LETTER ALI GALI BALUDA..MONGOLIAN LETTER ALI GALI THREE BALUDA",
text! "18A9          ; Extend # Mn       MONGOLIAN LETTER ALI GALI DAGALGA",
text! "1920..1922    ; Extend # Mn   [3] LIMBU VOWEL SIGN A..LIMBU VOWEL SIGN U",
text! "1927..1928    ; Extend # Mn   [2] LIMBU VOWEL SIGN E..LIMBU VOWEL SIGN O",
text! "1932          ; Extend # Mn       LIMBU SMALL LETTER ANUSVARA",
text! "1939..193B    ; Extend # Mn   [3] LIMBU SIGN MUKPHRENG..LIMBU SIGN SA-I",
text! "1A17..1A18    ; Extend # Mn   [2] BUGINESE VOWEL SIGN I..BUGINESE VOWEL SIGN U",
text! "1A1B          ; Extend # Mn       BUGINESE VOWEL SIGN AE",
text! "1A56          ; Extend # Mn       TAI THAM CONSONANT SIGN MEDIAL LA",
text! "1A58..1A5E    ; Extend # Mn   [7] TAI THAM SIGN MAI KANG LAI..TAI THAM CONSONANT SIGN SA",
text! "1A60          ; Extend # Mn       TAI THAM SIGN SAKOT",
text! "1A62          ; Extend # Mn       TAI THAM VOWEL SIGN MAI SAT",
text! "1A65..1A6C    ; Extend # Mn   [8] TAI THAM VOWEL SIGN I..TAI THAM VOWEL SIGN OA BELOW",
text! "1A73..1A7C    ; Extend # Mn  [10] TAI THAM VOWEL SIGN OA ABOVE..TAI THAM SIGN KHUEN-LUE KARAN",
text! "1A7F          ; Extend # Mn       TAI THAM COMBINING CRYPTOGRAMMIC DOT",
text! "1AB0..1ABD    ; Extend # Mn  [14] COMBINING DOUBLED CIRCUMFLEX ACCENT..COMBINING PARENTHESES BELOW",
text! "1ABE          ; Extend # Me       COMBINING PARENTHESES OVERLAY",
text! "1ABF..1ADD    ; Extend # Mn  [31] COMBINING LATIN SMALL LETTER W BELOW..COMBINING DOT-AND-RING BELOW",
text! "1AE0..1AEB    ; Extend # Mn  [12] COMBINING LEFT TACK ABOVE..COMBINING DOUBLE RIGHTWARDS ARROW ABOVE",
text! "1B00..1B03    ; Extend # Mn   [4] BALINESE SIGN ULU RICEM..BALINESE SIGN SURANG",
text! "1B34          ; Extend # Mn       BALINESE SIGN REREKAN",
text! "1B35          ; Extend # Mc       BALINESE VOWEL SIGN TEDUNG",
text! "1B36..1B3A    ; Extend # Mn   [5] BALINESE VOWEL SIGN ULU..BALINESE VOWEL SIGN RA REPA",
text! "1B3B          ; Extend # Mc       BALINESE VOWEL SIGN RA REPA TEDUNG",
text! "1B3C          ; Extend # Mn       BALINESE VOWEL SIGN LA LENGA",
text! "1B3D          ; Extend # Mc       BALINESE VOWEL SIGN LA LENGA TEDUNG",
text! "1B42          ; Extend # Mn       BALINESE VOWEL SIGN PEPET",
text! "1B43..1B44    ; Extend # Mc   [2] BALINESE VOWEL SIGN PEPET TEDUNG..BALINESE ADEG ADEG",
text! "1B6B..1B73    ; Extend # Mn   [9] BALINESE MUSICAL SYMBOL COMBINING TEGEH..BALINESE MUSICAL SYMBOL COMBINING GONG"]

/-- lines 257-320 -/
def breakProperty4 : List Nat := [
text! "1B80..1B81    ; Extend # Mn   [2] SUNDANESE SIGN PANYECEK..SUNDANESE SIGN PANGLAYAR",
text! "1BA2..1BA5    ; Extend # Mn   [4] SUNDANESE CONSONANT SIGN PANYAKRA..SUNDANESE VOWEL SIGN PANYUKU",
text! "1BA8..1BA9    ; Extend # Mn   [2] SUNDANESE VOWEL SIGN PAMEPET..SUNDANESE VOWEL SIGN PANEULEUNG",
text! "1BAA          ; Extend # Mc       SUNDANESE SIGN PAMAAEH",
text! "1BAB..1BAD    ; Extend # Mn   [3] SUNDANESE SIGN VIRAMA..SUNDANESE CONSONANT SIGN PASANGAN WA",
text! "1BE6          ; Extend # Mn       BATAK SIGN TOMPI",
text! "1BE8..1BE9    ; Extend # Mn   [2] BATAK VOWEL SIGN PAKPAK E..BATAK VOWEL SIGN EE",
text! "1BED          ; Extend # Mn       BATAK VOWEL SIGN KARO O",
text! "1BEF..1BF1    ; Extend # Mn   [3] BATAK VOWEL SIGN U FOR SIMALUNGUN SA..BATAK CONSONANT SIGN H",
text! "1BF2..1BF3    ; Extend # Mc   [2] BATAK PANGOLAT..BATAK PANONGONAN",
text! "1C2C..1C33    ; Extend # Mn   [8] LEPCHA VOWEL SIGN E..LEPCHA CONSONANT SIGN T",
text! "1C36..1C37    ; Extend # Mn   [2] LEPCHA SIGN RAN..LEPCHA SIGN NUKTA",
text! "1CD0..1CD2    ; Extend # Mn   [3] VEDIC TONE KARSHANA..VEDIC TONE PRENKHA",
text! "1CD4..1CE0    ; Extend # Mn  [13] VEDIC SIGN YAJURVEDIC MIDLINE SVARITA..VEDIC TONE RIGVEDIC KASHMIRI INDEPENDENT SVARITA",
text! "1CE2..1CE8    ; Extend # Mn   [7] VEDIC SIGN VISARGA SVARITA..VEDIC SIGN VISARGA ANUDATTA WITH TAIL",
text! "1CED          ; Extend # Mn       VEDIC SIGN TIRYAK",
text! "1CF4          ; Extend # Mn       VEDIC TONE CANDRA ABOVE",
text! "1CF8..1CF9    ; Extend # Mn   [2] VEDIC TONE RING ABOVE..VEDIC TONE DOUBLE RING ABOVE",
text! "1DC0..1DFF    ; Extend # Mn  [64] COMBINING DOTTED GRAVE ACCENT..COMBINING RIGHT ARROWHEAD AND DOWN ARROWHEAD BELOW",
text! "200C          ; Extend # Cf       ZERO WIDTH NON-JOINER",
text! "20D0..20DC    ; Extend # Mn  [13] COMBINING LEFT HARPOON ABOVE..COMBINING FOUR DOTS ABOVE",
text! "20DD..20E0    ; Extend # Me   [4] COMBINING ENCLOSING CIRCLE..COMBINING ENCLOSING CIRCLE BACKSLASH",
text! "20E1          ; Extend # Mn       COMBINING LEFT RIGHT ARROW ABOVE",
text! "20E2..20E4    ; Extend # Me   [3] COMBINING ENCLOSING SCREEN..COMBINING ENCLOSING UPWARD POINTING TRIANGLE",
text! "20E5..20F0    ; Extend # Mn  [12] COMBINING REVERSE SOLIDUS OVERLAY..COMBINING ASTERISK ABOVE",
text! "2CEF..2CF1    ; Extend # Mn   [3] COPTIC COMBINING NI ABOVE..COPTIC COMBINING SPIRITUS LENIS",
text! "2D7F          ; Extend # Mn       TIFINAGH CONSONANT JOINER",
text! "2DE0..2DFF    ; Extend # Mn  [32] COMBINING CYRILLIC LETTER BE..COMBINING CYRILLIC LETTER IOTIFIED BIG YUS",
text! "302A..302D    ; Extend # Mn   [4] IDEOGRAPHIC LEVEL TONE MARK..IDEOGRAPHIC ENTERING TONE MARK",
text! "302E..302F    ; Extend # Mc   [2] HANGUL SINGLE DOT TONE MARK..HANGUL DOUBLE DOT TONE MARK",
text! "3099..309A    ; Extend # Mn   [2] COMBINING KATAKANA-HIRAGANA VOICED SOUND MARK..COMBINING KATAKANA-HIRAGANA SEMI-VOICED SOUND MARK",
text! "A66F          ; Extend # Mn       COMBINING CYRILLIC VZMET",
text! "A670..A672    ; Extend # Me   [3] COMBINING CYRILLIC TEN MILLIONS SIGN..COMBINING CYRILLIC THOUSAND MILLIONS SIGN",
text! "A674..A67D    ; Extend # Mn  [10] COMBINING CYRILLIC LETTER UKRAINIAN IE..COMBINING CYRILLIC PAYEROK",
text! "A69E..A69F    ; Extend # Mn   [2] COMBINING CYRILLIC LETTER EF..COMBINING CYRILLIC LETTER IOTIFIED E",
text! "A6F0..A6F1    ; Extend # Mn   [2] BAMUM COMBINING MARK KOQNDON..BAMUM COMBINING MARK TUKWENTIS",
text! "A802          ; Extend # Mn       SYLOTI NAGRI SIGN DVISVARA",
text! "A806          ; Extend # Mn       SYLOTI NAGRI SIGN HASANTA",
text! "A80B          ; Extend # Mn       SYLOTI NAGRI SIGN ANUSVARA",
text! "A825..A826    ; Extend # Mn   [2] SYLOTI NAGRI VOWEL SIGN U..SYLOTI NAGRI VOWEL SIGN E",
text! "A82C          ; Extend # Mn       SYLOTI NAGRI SIGN ALTERNATE HASANTA",
text! "A8C4..A8C5    ; Extend # Mn   [2] SAURASHTRA SIGN VIRAMA..SAURASHTRA SIGN CANDRABINDU",
text! "A8E0..A8F1    ; Extend # Mn  [18] COMBINING DEVANAGARI DIGIT ZERO..COMBINING DEVANAGARI SIGN AVAGRAHA",
text! "A8FF          ; Extend # Mn       DEVANAGARI VOWEL SIGN AY",
text! "A926..A92D    ; Extend # Mn   [8] KAYAH LI VOWEL UE..KAYAH LI TONE CALYA PLOPHU",
text! "A947..A951    ; Extend # Mn  [11] REJANG VOWEL SIGN I..REJANG CONSONANT SIGN R",
text! "A953          ; Extend # Mc       REJANG VIRAMA",
text! "A980..A982    ; Extend # Mn   [3] JAVANESE SIGN PANYANGGA..JAVANESE SIGN LAYAR",
text! "A9B3          ; Extend # Mn       JAVANESE SIGN CECAK TELU",
text! "A9B6..A9B9    ; Extend # Mn   [4] JAVANESE VOWEL SIGN WULU..JAVANESE VOWEL SIGN SUKU MENDUT",
text! "A9BC..A9BD    ; Extend # Mn   [2] JAVANESE VOWEL SIGN PEPET..JAVANESE CONSONANT SIGN KERET",
text! "A9C0          ; Extend # Mc       JAVANESE PANGKON",
text! "A9E5          ; Extend # Mn       MYANMAR SIGN SHAN SAW",
text! "AA29..AA2E    ; Extend # Mn   [6] CHAM VOWEL SIGN AA..CHAM VOWEL SIGN OE",
text! "AA31..AA32    ; Extend # Mn   [2] CHAM VOWEL SIGN AU..CHAM VOWEL SIGN UE",
text! "AA35..AA36    ; Extend # Mn   [2] CHAM CONSONANT SIGN LA..CHAM CONSONANT SIGN WA",
text! "AA43          ; Extend # Mn       CHAM CONSONANT SIGN FINAL NG",
text! "AA4C          ; Extend # Mn       CHAM CONSONANT SIGN FINAL M",
text! "AA7C          ; Extend # Mn       MYANMAR SIGN TAI LAING TONE-2",
text! "AAB0          ; Extend # Mn       TAI VIET MAI KANG",
text! "AAB2..AAB4    ; Extend # Mn   [3] TAI VIET VOWEL I..TAI VIET VOWEL U",
text! "AAB7..AAB8    ; Extend # Mn   [2] TAI VIET MAI KHIT..TAI VIET VOWEL IA",
text! "AABE..AABF    ; Extend # Mn   [2] TAI VIET VOWEL AM..TAI VIET TONE MAI EK",
text! "AAC1          ; Extend # Mn       TAI VIET TONE MAI THO"]

/-- lines 321-384 -/
def breakProperty5 : List Nat := [
text! "AAEC..AAED    ; Extend # Mn   [2] MEETEI MAYEK VOWEL SIGN UU..MEETEI MAYEK VOWEL SIGN AAI",
text! "AAF6          ; Extend # Mn       MEETEI MAYEK VIRAMA",
text! "ABE5          ; Extend # Mn       MEETEI MAYEK VOWEL SIGN ANAP",
text! "ABE8          ; Extend # Mn       MEETEI MAYEK VOWEL SIGN UNAP",
text! "ABED          ; Extend # Mn       MEETEI MAYEK APUN IYEK",
text! "FB1E          ; Extend # Mn       HEBREW POINT JUDEO-SPANISH VARIKA",
text! "FE00..FE0F    ; Extend # Mn  [16] VARIATION SELECTOR-1..VARIATION SELECTOR-16",
text! "FE20..FE2F    ; Extend # Mn  [16] COMBINING LIGATURE LEFT HALF..COMBINING CYRILLIC TITLO RIGHT HALF",
text! "FF9E..FF9F    ; Extend # Lm   [2] HALFWIDTH KATAKANA VOICED SOUND MARK..HALFWIDTH KATAKANA SEMI-VOICED SOUND MARK",
text! "101FD         ; Extend # Mn       PHAISTOS DISC SIGN COMBINING OBLIQUE STROKE",
text! "102E0         ; Extend # Mn       COPTIC EPACT THOUSANDS MARK",
text! "10376..1037A  ; Extend # Mn   [5] COMBINING OLD PERMIC LETTER AN..COMBINING OLD PERMIC LETTER SII",
text! "10A01..10A03  ; Extend # Mn   [3] KHAROSHTHI VOWEL SIGN I..KHAROSHTHI VOWEL SIGN VOCALIC R",
text! "10A05..10A06  ; Extend # Mn   [2] KHAROSHTHI VOWEL SIGN E..KHAROSHTHI VOWEL SIGN O",
text! "10A0C..10A0F  ; Extend # Mn   [4] KHAROSHTHI VOWEL LENGTH MARK..KHAROSHTHI SIGN VISARGA",
text! "10A38..10A3A  ; Extend # Mn   [3] KHAROSHTHI SIGN BAR ABOVE..KHAROSHTHI SIGN DOT BELOW",
text! "10A3F         ; Extend # Mn       KHAROSHTHI VIRAMA",
text! "10AE5..10AE6  ; Extend # Mn   [2] MANICHAEAN ABBREVIATION MARK ABOVE..MANICHAEAN ABBREVIATION MARK BELOW",
text! "10D24..10D27  ; Extend # Mn   [4] HANIFI ROHINGYA SIGN HARBAHAY..HANIFI ROHINGYA SIGN TASSI",
text! "10D69..10D6D  ; Extend # Mn   [5] GARAY VOWEL SIGN E..GARAY CONSONANT NASALIZATION MARK",
text! "10EAB..10EAC  ; Extend # Mn   [2] YEZIDI COMBINING HAMZA MARK..YEZIDI COMBINING MADDA MARK",
text! "10EFA..10EFF  ; Extend # Mn   [6] ARABIC DOUBLE VERTICAL BAR BELOW..ARABIC SMALL LOW WORD MADDA",
text! "10F46..10F50  ; Extend # Mn  [11] SOGDIAN COMBINING DOT BELOW..SOGDIAN COMBINING STROKE BELOW",
text! "10F82..10F85  ; Extend # Mn   [4] OLD UYGHUR COMBINING DOT ABOVE..OLD UYGHUR COMBINING TWO DOTS BELOW",
text! "11001         ; Extend # Mn       BRAHMI SIGN ANUSVARA",
text! "11038..11046  ; Extend # Mn  [15] BRAHMI VOWEL SIGN AA..BRAHMI VIRAMA",
text! "11070         ; Extend # Mn       BRAHMI SIGN OLD TAMIL VIRAMA",
text! "11073..11074  ; Extend # Mn   [2] BRAHMI VOWEL SIGN OLD TAMIL SHORT E..BRAHMI VOWEL SIGN OLD TAMIL SHORT O",
text! "1107F..11081  ; Extend # Mn   [3] BRAHMI NUMBER JOINER..KAITHI SIGN ANUSVARA",
text! "110B3..110B6  ; Extend # Mn   [4] KAITHI VOWEL SIGN U..KAITHI VOWEL SIGN AI",
text! "110B9..110BA  ; Extend # Mn   [2] KAITHI SIGN VIRAMA..KAITHI SIGN NUKTA",
text! "110C2         ; Extend # Mn       KAITHI VOWEL SIGN VOCALIC R",
text! "11100..11102  ; Extend # Mn   [3] CHAKMA SIGN CANDRABINDU..CHAKMA SIGN VISARGA",
text! "11127..1112B  ; Extend # Mn   [5] CHAKMA VOWEL SIGN A..CHAKMA VOWEL SIGN UU",
text! "1112D..11134  ; Extend # Mn   [8] CHAKMA VOWEL SIGN AI..CHAKMA MAAYYAA",
text! "11173         ; Extend # Mn       MAHAJANI SIGN NUKTA",
text! "11180..11181  ; Extend # Mn   [2] SHARADA SIGN CANDRABINDU..SHARADA SIGN ANUSVARA",
text! "111B6..111BE  ; Extend # Mn   [9] SHARADA VOWEL SIGN U..SHARADA VOWEL SIGN O",
text! "111C0         ; Extend # Mc       SHARADA SIGN VIRAMA",
text! "111C9..111CC  ; Extend # Mn   [4] SHARADA SANDHI MARK..SHARADA EXTRA SHORT VOWEL MARK",
text! "111CF         ; Extend # Mn       SHARADA SIGN INVERTED CANDRABINDU",
text! "1122F..11231  ; Extend # Mn   [3] KHOJKI VOWEL SIGN U..KHOJKI VOWEL SIGN AI",
text! "11234         ; Extend # Mn       KHOJKI SIGN ANUSVARA",
text! "11235         ; Extend # Mc       KHOJKI SIGN VIRAMA",
text! "11236..11237  ; Extend # Mn   [2] KHOJKI SIGN NUKTA..KHOJKI SIGN SHADDA",
text! "1123E         ; Extend # Mn       KHOJKI SIGN SUKUN",
text! "11241         ; Extend # Mn       KHOJKI VOWEL SIGN VOCALIC R",
text! "112DF         ; Extend # Mn       KHUDAWADI SIGN ANUSVARA",
text! "112E3..112EA  ; Extend # Mn   [8] KHUDAWADI VOWEL SIGN U..KHUDAWADI SIGN VIRAMA",
text! "11300..11301  ; Extend # Mn   [2] GRANTHA SIGN COMBINING ANUSVARA ABOVE..GRANTHA SIGN CANDRABINDU",
text! "1133B..1133C  ; Extend # Mn   [2] COMBINING BINDU BELOW..GRANTHA SIGN NUKTA",
text! "1133E         ; Extend # Mc       GRANTHA VOWEL SIGN AA",
text! "11340         ; Extend # Mn       GRANTHA VOWEL SIGN II",
text! "1134D         ; Extend # Mc       GRANTHA SIGN VIRAMA",
text! "11357         ; Extend # Mc       GRANTHA AU LENGTH MARK",
text! "11366..1136C  ; Extend # Mn   [7] COMBINING GRANTHA DIGIT ZERO..COMBINING GRANTHA DIGIT SIX",
text! "11370..11374  ; Extend # Mn   [5] COMBINING GRANTHA LETTER A..COMBINING GRANTHA LETTER PA",
text! "113B8         ; Extend # Mc       TULU-TIGALARI VOWEL SIGN AA",
text! "113BB..113C0  ; Extend # Mn   [6] TULU-TIGALARI VOWEL SIGN U..TULU-TIGALARI VOWEL SIGN VOCALIC LL",
text! "113C2         ; Extend # Mc       TULU-TIGALARI VOWEL SIGN EE",
text! "113C5         ; Extend # Mc       TULU-TIGALARI VOWEL SIGN AI",
text! "113C7..113C9  ; Extend # Mc   [3] TULU-TIGALARI VOWEL SIGN OO..TULU-TIGALARI AU LENGTH MARK",
text! "113CE         ; Extend # Mn       TULU-TIGALARI SIGN VIRAMA",
text! "113CF         ; Extend # Mc       TULU-TIGALARI SIGN LOOPED VIRAMA"]

/-- lines 385-448 -/
def breakProperty6 : List Nat := [
text! "113D0         ; Extend # Mn       TULU-TIGALARI CONJOINER",
text! "113D2         ; Extend # Mn       TULU-TIGALARI GEMINATION MARK",
text! "113E1..113E2  ; Extend # Mn   [2] TULU-TIGALARI VEDIC TONE SVARITA..TULU-TIGALARI VEDIC TONE ANUDATTA",
text! "11438..1143F  ; Extend # Mn   [8] NEWA VOWEL SIGN U..NEWA VOWEL SIGN AI",
text! "11442..11444  ; Extend # Mn   [3] NEWA SIGN VIRAMA..NEWA SIGN ANUSVARA",
text! "11446         ; Extend # Mn       NEWA SIGN NUKTA",
text! "1145E         ; Extend # Mn       NEWA SANDHI MARK",
text! "114B0         ; Extend # Mc       TIRHUTA VOWEL SIGN AA",
text! "114B3..114B8  ; Extend # Mn   [6] TIRHUTA VOWEL SIGN U..TIRHUTA VOWEL SIGN VOCALIC LL",
text! "114BA         ; Extend # Mn       TIRHUTA VOWEL SIGN SHORT E",
text! "114BD         ; Extend # Mc       TIRHUTA VOWEL SIGN SHORT O",
text! "114BF..114C0  ; Extend # Mn   [2] TIRHUTA SIGN CANDRABINDU..TIRHUTA SIGN ANUSVARA",
text! "114C2..114C3  ; Extend # Mn   [2] TIRHUTA SIGN VIRAMA..TIRHUTA SIGN NUKTA",
text! "115AF         ; Extend # Mc       SIDDHAM VOWEL SIGN AA",
text! "115B2..115B5  ; Extend # Mn   [4] SIDDHAM VOWEL SIGN U..SIDDHAM VOWEL SIGN VOCALIC RR",
text! "115BC..115BD  ; Extend # Mn   [2] SIDDHAM SIGN CANDRABINDU..SIDDHAM SIGN ANUSVARA",
text! "115BF..115C0  ; Extend # Mn   [2] SIDDHAM SIGN VIRAMA..SIDDHAM SIGN NUKTA",
text! "115DC..115DD  ; Extend # Mn   [2] SIDDHAM VOWEL SIGN ALTERNATE U..SIDDHAM VOWEL SIGN ALTERNATE UU",
text! "11633..1163A  ; Extend # Mn   [8] MODI VOWEL SIGN U..MODI VOWEL SIGN AI",
text! "1163D         ; Extend # Mn       MODI SIGN ANUSVARA",
text! "1163F..11640  ; Extend # Mn   [2] MODI SIGN VIRAMA..MODI SIGN ARDHACANDRA",
text! "116AB         ; Extend # Mn       TAKRI SIGN ANUSVARA",
text! "116AD         ; Extend # Mn       TAKRI VOWEL SIGN AA",
text! "116B0..116B5  ; Extend # Mn   [6] TAKRI VOWEL SIGN U..TAKRI VOWEL SIGN AU",
text! "116B6         ; Extend # Mc       TAKRI SIGN VIRAMA",
text! "116B7         ; Extend # Mn       TAKRI SIGN NUKTA",
text! "1171D         ; Extend # Mn       AHOM CONSONANT SIGN MEDIAL LA",
text! "1171F         ; Extend # Mn       AHOM CONSONANT SIGN MEDIAL LIGATING RA",
text! "11722..11725  ; Extend # Mn   [4] AHOM VOWEL SIGN I..AHOM VOWEL SIGN UU",
text! "11727..1172B  ; Extend # Mn   [5] AHOM VOWEL SIGN AW..AHOM SIGN KILLER",
text! "1182F..11837  ; Extend # Mn   [9] DOGRA VOWEL SIGN U..DOGRA SIGN ANUSVARA",
text! "11839..1183A  ; Extend # Mn   [2] DOGRA SIGN VIRAMA..DOGRA SIGN NUKTA",
text! "11930         ; Extend # Mc       DIVES AKURU VOWEL SIGN AA",
text! "1193B..1193C  ; Extend # Mn   [2] DIVES AKURU SIGN ANUSVARA..DIVES AKURU SIGN CANDRABINDU",
text! "1193D         ; Extend # Mc       DIVES AKURU SIGN HALANTA",
text! "1193E         ; Extend # Mn       DIVES AKURU VIRAMA",
text! "11943         ; Extend # Mn       DIVES AKURU SIGN NUKTA",
text! "119D4..119D7  ; Extend # Mn   [4] NANDINAGARI VOWEL SIGN U..NANDINAGARI VOWEL SIGN VOCALIC RR",
text! "119DA..119DB  ; Extend # Mn   [2] NANDINAGARI VOWEL SIGN E..NANDINAGARI VOWEL SIGN AI",
text! "119E0         ; Extend # Mn       NANDINAGARI SIGN VIRAMA",
text! "11A01..11A0A  ; Extend # Mn  [10] ZANABAZAR SQUARE VOWEL SIGN I..ZANABAZAR SQUARE VOWEL LENGTH MARK",
text! "11A33..11A38  ; Extend # Mn   [6] ZANABAZAR SQUARE FINAL CONSONANT MARK..ZANABAZAR SQUARE SIGN ANUSVARA",
text! "11A3B..11A3E  ; Extend # Mn   [4] ZANABAZAR SQUARE CLUSTER-FINAL LETTER YA..ZANABAZAR SQUARE CLUSTER-FINAL LETTER VA",
text! "11A47         ; Extend # Mn       ZANABAZAR SQUARE SUBJOINER",
text! "11A51..11A56  ; Extend # Mn   [6] SOYOMBO VOWEL SIGN I..SOYOMBO VOWEL SIGN OE",
text! "11A59..11A5B  ; Extend # Mn   [3] SOYOMBO VOWEL SIGN VOCALIC R..SOYOMBO VOWEL LENGTH MARK",
text! "11A8A..11A96  ; Extend # Mn  [13] SOYOMBO FINAL CONSONANT SIGN G..SOYOMBO SIGN ANUSVARA",
text! "11A98..11A99  ; Extend # Mn   [2] SOYOMBO GEMINATION MARK..SOYOMBO SUBJOINER",
text! "11B60         ; Extend # Mn       SHARADA VOWEL SIGN OE",
text! "11B62..11B64  ; Extend # Mn   [3] SHARADA VOWEL SIGN UE..SHARADA VOWEL SIGN SHORT E",
text! "11B66         ; Extend # Mn       SHARADA VOWEL SIGN CANDRA E",
text! "11C30..11C36  ; Extend # Mn   [7] BHAIKSUKI VOWEL SIGN I..BHAIKSUKI VOWEL SIGN VOCALIC L",
text! "11C38..11C3D  ; Extend # Mn   [6] BHAIKSUKI VOWEL SIGN E..BHAIKSUKI SIGN ANUSVARA",
text! "11C3F         ; Extend # Mn       BHAIKSUKI SIGN VIRAMA",
text! "11C92..11CA7  ; Extend # Mn  [22] MARCHEN SUBJOINED LETTER KA..MARCHEN SUBJOINED LETTER ZA",
text! "11CAA..11CB0  ; Extend # Mn   [7] MARCHEN SUBJOINED LETTER RA..MARCHEN VOWEL SIGN AA",
text! "11CB2..11CB3  ; Extend # Mn   [2] MARCHEN VOWEL SIGN U..MARCHEN VOWEL SIGN E",
text! "11CB5..11CB6  ; Extend # Mn   [2] MARCHEN SIGN ANUSVARA..MARCHEN SIGN CANDRABINDU",
text! "11D31..11D36  ; Extend # Mn   [6] MASARAM GONDI VOWEL SIGN AA..MASARAM GONDI VOWEL SIGN VOCALIC R",
text! "11D3A         ; Extend # Mn       MASARAM GONDI VOWEL SIGN E",
text! "11D3C..11D3D  ; Extend # Mn   [2] MASARAM GONDI VOWEL SIGN AI..MASARAM GONDI VOWEL SIGN O",
text! "11D3F..11D45  ; Extend # Mn   [7] MASARAM GONDI VOWEL SIGN AU..MASARAM GONDI VIRAMA",
text! "11D47         ; Extend # Mn       MASARAM GONDI RA-KARA",
text! "11D90..11D91  ; Extend # Mn   [2] GUNJALA GONDI VOWEL SIGN EE..GUNJALA GONDI VOWEL SIGN AI"]

/-- lines 449-512 -/
def breakProperty7 : List Nat := [
text! "11D95         ; Extend # Mn       GUNJALA GONDI SIGN ANUSVARA",
text! "11D97         ; Extend # Mn       GUNJALA GONDI VIRAMA",
text! "11EF3..11EF4  ; Extend # Mn   [2] MAKASAR VOWEL SIGN I..MAKASAR VOWEL SIGN U",
text! "11F00..11F01  ; Extend # Mn   [2] KAWI SIGN CANDRABINDU..KAWI SIGN ANUSVARA",
text! "11F36..11F3A  ; Extend # Mn   [5] KAWI VOWEL SIGN I..KAWI VOWEL SIGN VOCALIC R",
text! "11F40         ; Extend # Mn       KAWI VOWEL SIGN EU",
text! "11F41         ; Extend # Mc       KAWI SIGN KILLER",
text! "11F42         ; Extend # Mn       KAWI CONJOINER",
text! "11F5A         ; Extend # Mn       KAWI SIGN NUKTA",
text! "13440         ; Extend # Mn       EGYPTIAN HIEROGLYPH MIRROR HORIZONTALLY",
text! "13447..13455  ; Extend # Mn  [15] EGYPTIAN HIEROGLYPH MODIFIER DAMAGED AT TOP START..EGYPTIAN HIEROGLYPH MODIFIER DAMAGED",
text! "1611E..16129  ; Extend # Mn  [12] GURUNG KHEMA VOWEL SIGN AA..GURUNG KHEMA VOWEL LENGTH MARK",
text! "1612D..1612F  ; Extend # Mn   [3] GURUNG KHEMA SIGN ANUSVARA..GURUNG KHEMA SIGN THOLHOMA",
text! "16AF0..16AF4  ; Extend # Mn   [5] BASSA VAH COMBINING HIGH TONE..BASSA VAH COMBINING HIGH-LOW TONE",
text! "16B30..16B36  ; Extend # Mn   [7] PAHAWH HMONG MARK CIM TUB..PAHAWH HMONG MARK CIM TAUM",
text! "16F4F         ; Extend # Mn       MIAO SIGN CONSONANT MODIFIER BAR",
text! "16F8F..16F92  ; Extend # Mn   [4] MIAO TONE RIGHT..MIAO TONE BELOW",
text! "16FE4         ; Extend # Mn       KHITAN SMALL SCRIPT FILLER",
text! "16FF0..16FF1  ; Extend # Mc   [2] VIETNAMESE ALTERNATE READING MARK CA..VIETNAMESE ALTERNATE READING MARK NHAY",
text! "1BC9D..1BC9E  ; Extend # Mn   [2] DUPLOYAN THICK LETTER SELECTOR..DUPLOYAN DOUBLE MARK",
text! "1CF00..1CF2D  ; Extend # Mn  [46] ZNAMENNY COMBINING MARK GORAZDO NIZKO S KRYZHEM ON LEFT..ZNAMENNY COMBINING MARK KRYZH ON LEFT",
text! "1CF30..1CF46  ; Extend # Mn  [23] ZNAMENNY COMBINING TONAL RANGE MARK MRACHNO..ZNAMENNY PRIZNAK MODIFIER ROG",
text! "1D165..1D166  ; Extend # Mc   [2] MUSICAL SYMBOL COMBINING STEM..MUSICAL SYMBOL COMBINING SPRECHGESANG STEM",
text! "1D167..1D169  ; Extend # Mn   [3] MUSICAL SYMBOL COMBINING TREMOLO-1..MUSICAL SYMBOL COMBINING TREMOLO-3",
text! "1D16D..1D172  ; Extend # Mc   [6] MUSICAL SYMBOL COMBINING AUGMENTATION DOT..MUSICAL SYMBOL COMBINING FLAG-5",
text! "1D17B..1D182  ; Extend # Mn   [8] MUSICAL SYMBOL COMBINING ACCENT..MUSICAL SYMBOL COMBINING LOURE",
text! "1D185..1D18B  ; Extend # Mn   [7] MUSICAL SYMBOL COMBINING DOIT..MUSICAL SYMBOL COMBINING TRIPLE TONGUE",
text! "1D1AA..1D1AD  ; Extend # Mn   [4] MUSICAL SYMBOL COMBINING DOWN BOW..MUSICAL SYMBOL COMBINING SNAP PIZZICATO",
text! "1D242..1D244  ; Extend # Mn   [3] COMBINING GREEK MUSICAL TRISEME..COMBINING GREEK MUSICAL PENTASEME",
text! "1DA00..1DA36  ; Extend # Mn  [55] SIGNWRITING HEAD RIM..SIGNWRITING AIR SUCKING IN",
text! "1DA3B..1DA6C  ; Extend # Mn  [50] SIGNWRITING MOUTH CLOSED NEUTRAL..SIGNWRITING EXCITEMENT",
text! "1DA75         ; Extend # Mn       SIGNWRITING UPPER BODY TILTING FROM HIP JOINTS",
text! "1DA84         ; Extend # Mn       SIGNWRITING LOCATION HEAD NECK",
text! "1DA9B..1DA9F  ; Extend # Mn   [5] SIGNWRITING FILL MODIFIER-2..SIGNWRITING FILL MODIFIER-6",
text! "1DAA1..1DAAF  ; Extend # Mn  [15] SIGNWRITING ROTATION MODIFIER-2..SIGNWRITING ROTATION MODIFIER-16",
text! "1E000..1E006  ; Extend # Mn   [7] COMBINING GLAGOLITIC LETTER AZU..COMBINING GLAGOLITIC LETTER ZHIVETE",
text! "1E008..1E018  ; Extend # Mn  [17] COMBINING GLAGOLITIC LETTER ZEMLJA..COMBINING GLAGOLITIC LETTER HERU",
text! "1E01B..1E021  ; Extend # Mn   [7] COMBINING GLAGOLITIC LETTER SHTA..COMBINING GLAGOLITIC LETTER YATI",
text! "1E023..1E024  ; Extend # Mn   [2] COMBINING GLAGOLITIC LETTER YU..COMBINING GLAGOLITIC LETTER SMALL YUS",
text! "1E026..1E02A  ; Extend # Mn   [5] COMBINING GLAGOLITIC LETTER YO..COMBINING GLAGOLITIC LETTER FITA",
text! "1E08F         ; Extend # Mn       COMBINING CYRILLIC SMALL LETTER BYELORUSSIAN-UKRAINIAN I",
text! "1E130..1E136  ; Extend # Mn   [7] NYIAKENG PUACHUE HMONG TONE-B..NYIAKENG PUACHUE HMONG TONE-D",
text! "1E2AE         ; Extend # Mn       TOTO SIGN RISING TONE",
text! "1E2EC..1E2EF  ; Extend # Mn   [4] WANCHO TONE TUP..WANCHO TONE KOINI",
text! "1E4EC..1E4EF  ; Extend # Mn   [4] NAG MUNDARI SIGN MUHOR..NAG MUNDARI SIGN SUTUH",
text! "1E5EE..1E5EF  ; Extend # Mn   [2] OL ONAL SIGN MU..OL ONAL SIGN IKIR",
text! "1E6E3         ; Extend # Mn       TAI YO SIGN UE",
text! "1E6E6         ; Extend # Mn       TAI YO SIGN AU",
text! "1E6EE..1E6EF  ; Extend # Mn   [2] TAI YO SIGN AY..TAI YO SIGN ANG",
text! "1E6F5         ; Extend # Mn       TAI YO SIGN OM",
text! "1E8D0..1E8D6  ; Extend # Mn   [7] MENDE KIKAKUI COMBINING NUMBER TEENS..MENDE KIKAKUI COMBINING NUMBER MILLIONS",
text! "1E944..1E94A  ; Extend # Mn   [7] ADLAM ALIF LENGTHENER..ADLAM NUKTA",
text! "1F3FB..1F3FF  ; Extend # Sk   [5] EMOJI MODIFIER FITZPATRICK TYPE-1-2..EMOJI MODIFIER FITZPATRICK TYPE-6",
text! "E0020..E007F  ; Extend # Cf  [96] TAG SPACE..CANCEL TAG",
text! "E0100..E01EF  ; Extend # Mn [240] VARIATION SELECTOR-17..VARIATION SELECTOR-256",
text! "",
text! "# Total code points: 2237",
text! "",
text! "# ================================================",
text! "",
text! "1F1E6..1F1FF  ; Regional_Indicator # So  [26] REGIONAL INDICATOR SYMBOL LETTER A..REGIONAL INDICATOR SYMBOL LETTER Z",
text! "",
text! "# Total code points: 26",
text! ""]

/-- lines 513-576 -/
def breakProperty8 : List Nat := [
text! "# ================================================",
text! "",
text! "0903          ; SpacingMark # Mc       DEVANAGARI SIGN VISARGA",
text! "093B          ; SpacingMark # Mc       DEVANAGARI VOWEL SIGN OOE",
text! "093E..0940    ; SpacingMark # Mc   [3] DEVANAGARI VOWEL SIGN AA..DEVANAGARI VOWEL SIGN II",
text! "0949..094C    ; SpacingMark # Mc   [4] DEVANAGARI VOWEL SIGN CANDRA O..DEVANAGARI VOWEL SIGN AU",
text! "094E..094F    ; SpacingMark # Mc   [2] DEVANAGARI VOWEL SIGN PRISHTHAMATRA E..DEVANAGARI VOWEL SIGN AW",
text! "0982..0983    ; SpacingMark # Mc   [2] BENGALI SIGN ANUSVARA..BENGALI SIGN VISARGA",
text! "09BF..09C0    ; SpacingMark # Mc   [2] BENGALI VOWEL SIGN I..BENGALI VOWEL SIGN II",
text! "09C7..09C8    ; SpacingMark # Mc   [2] BENGALI VOWEL SIGN E..BENGALI VOWEL SIGN AI",
text! "09CB..09CC    ; SpacingMark # Mc   [2] BENGALI VOWEL SIGN O..BENGALI VOWEL SIGN AU",
text! "0A03          ; SpacingMark # Mc       GURMUKHI SIGN VISARGA",
text! "0A3E..0A40    ; SpacingMark # Mc   [3] GURMUKHI VOWEL SIGN AA..GURMUKHI VOWEL SIGN II",
text! "0A83          ; SpacingMark # Mc       GUJARATI SIGN VISARGA",
text! "0ABE..0AC0    ; SpacingMark # Mc   [3] GUJARATI VOWEL SIGN AA..GUJARATI VOWEL SIGN II",
text! "0AC9          ; SpacingMark # Mc       GUJARATI VOWEL SIGN CANDRA O",
text! "0ACB..0ACC    ; SpacingMark # Mc   [2] GUJARATI VOWEL SIGN O..GUJARATI VOWEL SIGN AU",
text! "0B02..0B03    ; SpacingMark # Mc   [2] ORIYA SIGN ANUSVARA..ORIYA SIGN VISARGA",
text! "0B40          ; SpacingMark # Mc       ORIYA VOWEL SIGN II",
text! "0B47..0B48    ; SpacingMark # Mc   [2] ORIYA VOWEL SIGN E..ORIYA VOWEL SIGN AI",
text! "0B4B..0B4C    ; SpacingMark # Mc   [2] ORIYA VOWEL SIGN O..ORIYA VOWEL SIGN AU",
text! "0BBF          ; SpacingMark # Mc       TAMIL VOWEL SIGN I",
text! "0BC1..0BC2    ; SpacingMark # Mc   [2] TAMIL VOWEL SIGN U..TAMIL VOWEL SIGN UU",
text! "0BC6..0BC8    ; SpacingMark # Mc   [3] TAMIL VOWEL SIGN E..TAMIL VOWEL SIGN AI",
text! "0BCA..0BCC    ; SpacingMark # Mc   [3] TAMIL VOWEL SIGN O..TAMIL VOWEL SIGN AU",
text! "0C01..0C03    ; SpacingMark # Mc   [3] TELUGU SIGN CANDRABINDU..TELUGU SIGN VISARGA",
text! "0C41..0C44    ; SpacingMark # Mc   [4] TELUGU VOWEL SIGN U..TELUGU VOWEL SIGN VOCALIC RR",
text! "0C82..0C83    ; SpacingMark # Mc   [2] KANNADA SIGN ANUSVARA..KANNADA SIGN VISARGA",
text! "0CBE          ; SpacingMark # Mc       KANNADA VOWEL SIGN AA",
text! "0CC1          ; SpacingMark # Mc       KANNADA VOWEL SIGN U",
text! "0CC3..0CC4    ; SpacingMark # Mc   [2] KANNADA VOWEL SIGN VOCALIC R..KANNADA VOWEL SIGN VOCALIC RR",
text! "0CF3          ; SpacingMark # Mc       KANNADA SIGN COMBINING ANUSVARA ABOVE RIGHT",
text! "0D02..0D03    ; SpacingMark # Mc   [2] MALAYALAM SIGN ANUSVARA..MALAYALAM SIGN VISARGA",
text! "0D3F..0D40    ; SpacingMark # Mc   [2] MALAYALAM VOWEL SIGN I..MALAYALAM VOWEL SIGN II",
text! "0D46..0D48    ; SpacingMark # Mc   [3] MALAYALAM VOWEL SIGN E..MALAYALAM VOWEL SIGN AI",
text! "0D4A..0D4C    ; SpacingMark # Mc   [3] MALAYALAM VOWEL SIGN O..MALAYALAM VOWEL SIGN AU",
text! "0D82..0D83    ; SpacingMark # Mc   [2] SINHALA SIGN ANUSVARAYA..SINHALA SIGN VISARGAYA",
text! "0DD0..0DD1    ; SpacingMark # Mc   [2] SINHALA VOWEL SIGN KETTI AEDA-PILLA..SINHALA VOWEL SIGN DIGA AEDA-PILLA",
text! "0DD8..0DDE    ; SpacingMark # Mc   [7] SINHALA VOWEL SIGN GAETTA-PILLA..SINHALA VOWEL SIGN KOMBUVA HAA GAYANUKITTA",
text! "0DF2..0DF3    ; SpacingMark # Mc   [2] SINHALA VOWEL SIGN DIGA GAETTA-PILLA..SINHALA VOWEL SIGN DIGA GAYANUKITTA",
text! "0E33          ; SpacingMark # Lo       THAI CHARACTER SARA AM",
text! "0EB3          ; SpacingMark # Lo       LAO VOWEL SIGN AM",
text! "0F3E..0F3F    ; SpacingMark # Mc   [2] TIBETAN SIGN YAR TSHES..TIBETAN SIGN MAR TSHES",
text! "0F7F          ; SpacingMark # Mc       TIBETAN SIGN RNAM BCAD",
text! "1031          ; SpacingMark # Mc       MYANMAR VOWEL SIGN E",
text! "103B..103C    ; SpacingMark # Mc   [2] MYANMAR CONSONANT SIGN MEDIAL YA..MYANMAR CONSONANT SIGN MEDIAL RA",
text! "1056..1057    ; SpacingMark # Mc   [2] MYANMAR VOWEL SIGN VOCALIC R..MYANMAR VOWEL SIGN VOCALIC RR",
text! "1084          ; SpacingMark # Mc       MYANMAR VOWEL SIGN SHAN E",
text! "17B6          ; SpacingMark # Mc       KHMER VOWEL SIGN AA",
text! "17BE..17C5    ; SpacingMark # Mc   [8] KHMER VOWEL SIGN OE..KHMER VOWEL SIGN AU",
text! "17C7..17C8    ; SpacingMark # Mc   [2] KHMER SIGN REAHMUK..KHMER SIGN YUUKALEAPINTU",
text! "1923..1926    ; SpacingMark # Mc   [4] LIMBU VOWEL SIGN EE..LIMBU VOWEL SIGN AU",
text! "1929..192B    ; SpacingMark # Mc   [3] LIMBU SUBJOINED LETTER YA..LIMBU SUBJOINED LETTER WA",
text! "1930..1931    ; SpacingMark # Mc   [2] LIMBU SMALL LETTER KA..LIMBU SMALL LETTER NGA",
text! "1933..1938    ; SpacingMark # Mc   [6] LIMBU SMALL LETTER TA..LIMBU SMALL LETTER LA",
text! "1A19..1A1A    ; SpacingMark # Mc   [2] BUGINESE VOWEL SIGN E..BUGINESE VOWEL SIGN O",
text! "1A55          ; SpacingMark # Mc       TAI THAM CONSONANT SIGN MEDIAL RA",
text! "1A57          ; SpacingMark # Mc       TAI THAM CONSONANT SIGN LA TANG LAI",
text! "1A6D..1A72    ; SpacingMark # Mc   [6] TAI THAM VOWEL SIGN OY..TAI THAM VOWEL SIGN THAM AI",
text! "1B04          ; SpacingMark # Mc       BALINESE SIGN BISAH",
text! "1B3E..1B41    ; SpacingMark # Mc   [4] BALINESE VOWEL SIGN TALING..BALINESE VOWEL SIGN TALING REPA TEDUNG",
text! "1B82          ; SpacingMark # Mc       SUNDANESE SIGN PANGWISAD",
text! "1BA1          ; SpacingMark # Mc       SUNDANESE CONSONANT SIGN PAMINGKAL",
text! "1BA6..1BA7    ; SpacingMark # Mc   [2] SUNDANESE VOWEL SIGN PANAELAENG..SUNDANESE VOWEL SIGN PANOLONG"]

/-- lines 577-640 -/
def breakProperty9 : List Nat := [
text! "1BE7          ; SpacingMark # Mc       BATAK VOWEL SIGN E",
text! "1BEA..1BEC    ; SpacingMark # Mc   [3] BATAK VOWEL SIGN I..BATAK VOWEL SIGN O",
text! "1BEE          ; SpacingMark # Mc       BATAK VOWEL SIGN U",
text! "1C24..1C2B    ; SpacingMark # Mc   [8] LEPCHA SUBJOINED LETTER YA..LEPCHA VOWEL SIGN UU",
text! "1C34..1C35    ; SpacingMark # Mc   [2] LEPCHA CONSONANT SIGN NYIN-DO..LEPCHA CONSONANT SIGN KANG",
text! "1CE1          ; SpacingMark # Mc       VEDIC TONE ATHARVAVEDIC INDEPENDENT SVARITA",
text! "1CF7          ; SpacingMark # Mc       VEDIC SIGN ATIKRAMA",
text! "A823..A824    ; SpacingMark # Mc   [2] SYLOTI NAGRI VOWEL SIGN A..SYLOTI NAGRI VOWEL SIGN I",
text! "A827          ; SpacingMark # Mc       SYLOTI NAGRI VOWEL SIGN OO",
text! "A880..A881    ; SpacingMark # Mc   [2] SAURASHTRA SIGN ANUSVARA..SAURASHTRA SIGN VISARGA",
text! "A8B4..A8C3    ; SpacingMark # Mc  [16] SAURASHTRA CONSONANT SIGN HAARU..SAURASHTRA VOWEL SIGN AU",
text! "A952          ; SpacingMark # Mc       REJANG CONSONANT SIGN H",
text! "A983          ; SpacingMark # Mc       JAVANESE SIGN WIGNYAN",
text! "A9B4..A9B5    ; SpacingMark # Mc   [2] JAVANESE VOWEL SIGN TARUNG..JAVANESE VOWEL SIGN TOLONG",
text! "A9BA..A9BB    ; SpacingMark # Mc   [2] JAVANESE VOWEL SIGN TALING..JAVANESE VOWEL SIGN DIRGA MURE",
text! "A9BE..A9BF    ; SpacingMark # Mc   [2] JAVANESE CONSONANT SIGN PENGKAL..JAVANESE CONSONANT SIGN CAKRA",
text! "AA2F..AA30    ; SpacingMark # Mc   [2] CHAM VOWEL SIGN O..CHAM VOWEL SIGN AI",
text! "AA33..AA34    ; SpacingMark # Mc   [2] CHAM CONSONANT SIGN YA..CHAM CONSONANT SIGN RA",
text! "AA4D          ; SpacingMark # Mc       CHAM CONSONANT SIGN FINAL H",
text! "AAEB          ; SpacingMark # Mc       MEETEI MAYEK VOWEL SIGN II",
text! "AAEE..AAEF    ; SpacingMark # Mc   [2] MEETEI MAYEK VOWEL SIGN AU..MEETEI MAYEK VOWEL SIGN AAU",
text! "AAF5          ; SpacingMark # Mc       MEETEI MAYEK VOWEL SIGN VISARGA",
text! "ABE3..ABE4    ; SpacingMark # Mc   [2] MEETEI MAYEK VOWEL SIGN ONAP..MEETEI MAYEK VOWEL SIGN INAP",
text! "ABE6..ABE7    ; SpacingMark # Mc   [2] MEETEI MAYEK VOWEL SIGN YENAP..MEETEI MAYEK VOWEL SIGN SOUNAP",
text! "ABE9..ABEA    ; SpacingMark # Mc   [2] MEETEI MAYEK VOWEL SIGN CHEINAP..MEETEI MAYEK VOWEL SIGN NUNG",
text! "ABEC          ; SpacingMark # Mc       MEETEI MAYEK LUM IYEK",
text! "11000         ; SpacingMark # Mc       BRAHMI SIGN CANDRABINDU",
text! "11002         ; SpacingMark # Mc       BRAHMI SIGN VISARGA",
text! "11082         ; SpacingMark # Mc       KAITHI SIGN VISARGA",
text! "110B0..110B2  ; SpacingMark # Mc   [3] KAITHI VOWEL SIGN AA..KAITHI VOWEL SIGN II",
text! "110B7..110B8  ; SpacingMark # Mc   [2] KAITHI VOWEL SIGN O..KAITHI VOWEL SIGN AU",
text! "1112C         ; SpacingMark # Mc       CHAKMA VOWEL SIGN E",
text! "11145..11146  ; SpacingMark # Mc   [2] CHAKMA VOWEL SIGN AA..CHAKMA VOWEL SIGN EI",
text! "11182         ; SpacingMark # Mc       SHARADA SIGN VISARGA",
text! "111B3..111B5  ; SpacingMark # Mc   [3] SHARADA VOWEL SIGN AA..SHARADA VOWEL SIGN II",
text! "111BF         ; SpacingMark # Mc       SHARADA VOWEL SIGN AU",
text! "111CE         ; SpacingMark # Mc       SHARADA VOWEL SIGN PRISHTHAMATRA E",
text! "1122C..1122E  ; SpacingMark # Mc   [3] KHOJKI VOWEL SIGN AA..KHOJKI VOWEL SIGN II",
text! "11232..11233  ; SpacingMark # Mc   [2] KHOJKI VOWEL SIGN O..KHOJKI VOWEL SIGN AU",
text! "112E0..112E2  ; SpacingMark # Mc   [3] KHUDAWADI VOWEL SIGN AA..KHUDAWADI VOWEL SIGN II",
text! "11302..11303  ; SpacingMark # Mc   [2] GRANTHA SIGN ANUSVARA..GRANTHA SIGN VISARGA",
text! "1133F         ; SpacingMark # Mc       GRANTHA VOWEL SIGN I",
text! "11341..11344  ; SpacingMark # Mc   [4] GRANTHA VOWEL SIGN U..GRANTHA VOWEL SIGN VOCALIC RR",
text! "11347..11348  ; SpacingMark # Mc   [2] GRANTHA VOWEL SIGN EE..GRANTHA VOWEL SIGN AI",
text! "1134B..1134C  ; SpacingMark # Mc   [2] GRANTHA VOWEL SIGN OO..GRANTHA VOWEL SIGN AU",
text! "11362..11363  ; SpacingMark # Mc   [2] GRANTHA VOWEL SIGN VOCALIC L..GRANTHA VOWEL SIGN VOCALIC LL",
text! "113B9..113BA  ; SpacingMark # Mc   [2] TULU-TIGALARI VOWEL SIGN I..TULU-TIGALARI VOWEL SIGN II",
text! "113CA         ; SpacingMark # Mc       TULU-TIGALARI SIGN CANDRA ANUNASIKA",
text! "113CC..113CD  ; SpacingMark # Mc   [2] TULU-TIGALARI SIGN ANUSVARA..TULU-TIGALARI SIGN VISARGA",
text! "11435..11437  ; SpacingMark # Mc   [3] NEWA VOWEL SIGN AA..NEWA VOWEL SIGN II",
text! "11440..11441  ; SpacingMark # Mc   [2] NEWA VOWEL SIGN O..NEWA VOWEL SIGN AU",
text! "11445         ; SpacingMark # Mc       NEWA SIGN VISARGA",
text! "114B1..114B2  ; SpacingMark # Mc   [2] TIRHUTA VOWEL SIGN I..TIRHUTA VOWEL SIGN II",
text! "114B9         ; SpacingMark # Mc       TIRHUTA VOWEL SIGN E",
text! "114BB..114BC  ; SpacingMark # Mc   [2] TIRHUTA VOWEL SIGN AI..TIRHUTA VOWEL SIGN O",
text! "114BE         ; SpacingMark # Mc       TIRHUTA VOWEL SIGN AU",
text! "114C1         ; SpacingMark # Mc       TIRHUTA SIGN VISARGA",
text! "115B0..115B1  ; SpacingMark # Mc   [2] SIDDHAM VOWEL SIGN I..SIDDHAM VOWEL SIGN II",
text! "115B8..115BB  ; SpacingMark # Mc   [4] SIDDHAM VOWEL SIGN E..SIDDHAM VOWEL SIGN AU",
text! "115BE         ; SpacingMark # Mc       SIDDHAM SIGN VISARGA",
text! "11630..11632  ; SpacingMark # Mc   [3] MODI VOWEL SIGN AA..MODI VOWEL SIGN II",
text! "1163B..1163C  ; SpacingMark # Mc   [2] MODI VOWEL SIGN O..MODI VOWEL SIGN AU",
text! "1163E         ; SpacingMark # Mc       MODI SIGN VISARGA",
text! "116AC         ; SpacingMark # Mc       TAKRI SIGN VISARGA"]

/-- lines 641-704 -/
def breakProperty10 : List Nat := [
text! "116AE..116AF  ; SpacingMark # Mc   [2] TAKRI VOWEL SIGN I..TAKRI VOWEL SIGN II",
text! "1171E         ; SpacingMark # Mc       AHOM CONSONANT SIGN MEDIAL RA",
text! "11726         ; SpacingMark # Mc       AHOM VOWEL SIGN E",
text! "1182C..1182E  ; SpacingMark # Mc   [3] DOGRA VOWEL SIGN AA..DOGRA VOWEL SIGN II",
text! "11838         ; SpacingMark # Mc       DOGRA SIGN VISARGA",
text! "11931..11935  ; SpacingMark # Mc   [5] DIVES AKURU VOWEL SIGN I..DIVES AKURU VOWEL SIGN E",
text! "11937..11938  ; SpacingMark # Mc   [2] DIVES AKURU VOWEL SIGN AI..DIVES AKURU VOWEL SIGN O",
text! "11940         ; SpacingMark # Mc       DIVES AKURU MEDIAL YA",
text! "11942         ; SpacingMark # Mc       DIVES AKURU MEDIAL RA",
text! "119D1..119D3  ; SpacingMark # Mc   [3] NANDINAGARI VOWEL SIGN AA..NANDINAGARI VOWEL SIGN II",
text! "119DC..119DF  ; SpacingMark # Mc   [4] NANDINAGARI VOWEL SIGN O..NANDINAGARI SIGN VISARGA",
text! "119E4         ; SpacingMark # Mc       NANDINAGARI VOWEL SIGN PRISHTHAMATRA E",
text! "11A39         ; SpacingMark # Mc       ZANABAZAR SQUARE SIGN VISARGA",
text! "11A57..11A58  ; SpacingMark # Mc   [2] SOYOMBO VOWEL SIGN AI..SOYOMBO VOWEL SIGN AU",
text! "11A97         ; SpacingMark # Mc       SOYOMBO SIGN VISARGA",
text! "11B61         ; SpacingMark # Mc       SHARADA VOWEL SIGN OOE",
text! "11B65         ; SpacingMark # Mc       SHARADA VOWEL SIGN SHORT O",
text! "11B67         ; SpacingMark # Mc       SHARADA VOWEL SIGN CANDRA O",
text! "11C2F         ; SpacingMark # Mc       BHAIKSUKI VOWEL SIGN AA",
text! "11C3E         ; SpacingMark # Mc       BHAIKSUKI SIGN VISARGA",
text! "11CA9         ; SpacingMark # Mc       MARCHEN SUBJOINED LETTER YA",
text! "11CB1         ; SpacingMark # Mc       MARCHEN VOWEL SIGN I",
text! "11CB4         ; SpacingMark # Mc       MARCHEN VOWEL SIGN O",
text! "11D8A..11D8E  ; SpacingMark # Mc   [5] GUNJALA GONDI VOWEL SIGN AA..GUNJALA GONDI VOWEL SIGN UU",
text! "11D93..11D94  ; SpacingMark # Mc   [2] GUNJALA GONDI VOWEL SIGN OO..GUNJALA GONDI VOWEL SIGN AU",
text! "11D96         ; SpacingMark # Mc       GUNJALA GONDI SIGN VISARGA",
text! "11EF5..11EF6  ; SpacingMark # Mc   [2] MAKASAR VOWEL SIGN E..MAKASAR VOWEL SIGN O",
text! "11F03         ; SpacingMark # Mc       KAWI SIGN VISARGA",
text! "11F34..11F35  ; SpacingMark # Mc   [2] KAWI VOWEL SIGN AA..KAWI VOWEL SIGN ALTERNATE AA",
text! "11F3E..11F3F  ; SpacingMark # Mc   [2] KAWI VOWEL SIGN E..KAWI VOWEL SIGN AI",
text! "1612A..1612C  ; SpacingMark # Mc   [3] GURUNG KHEMA CONSONANT SIGN MEDIAL YA..GURUNG KHEMA CONSONANT SIGN MEDIAL HA",
text! "16F51..16F87  ; SpacingMark # Mc  [55] MIAO SIGN ASPIRATION..MIAO VOWEL SIGN UI",
text! "",
text! "# Total code points: 381",
text! "",
text! "# ================================================",
text! "",
text! "1100..115F    ; L # Lo  [96] HANGUL CHOSEONG KIYEOK..HANGUL CHOSEONG FILLER",
text! "A960..A97C    ; L # Lo  [29] HANGUL CHOSEONG TIKEUT-MIEUM..HANGUL CHOSEONG SSANGYEORINHIEUH",
text! "",
text! "# Total code points: 125",
text! "",
text! "# ================================================",
text! "",
text! "1160..11A7    ; V # Lo  [72] HANGUL JUNGSEONG FILLER..HANGUL JUNGSEONG O-YAE",
text! "D7B0..D7C6    ; V # Lo  [23] HANGUL JUNGSEONG O-YEO..HANGUL JUNGSEONG ARAEA-E",
text! "16D63         ; V # Lo       KIRAT RAI VOWEL SIGN AA",
text! "16D67..16D6A  ; V # Lo   [4] KIRAT RAI VOWEL SIGN E..KIRAT RAI VOWEL SIGN AU",
text! "",
text! "# Total code points: 100",
text! "",
text! "# ================================================",
text! "",
text! "11A8..11FF    ; T # Lo  [88] HANGUL JONGSEONG KIYEOK..HANGUL JONGSEONG SSANGNIEUN",
text! "D7CB..D7FB    ; T # Lo  [49] HANGUL JONGSEONG NIEUN-RIEUL..HANGUL JONGSEONG PHIEUPH-THIEUTH",
text! "",
text! "# Total code points: 137",
text! "",
text! "# ================================================",
text! "",
text! "AC00          ; LV # Lo       HANGUL SYLLABLE GA",
text! "AC1C          ; LV # Lo       HANGUL SYLLABLE GAE",
text! "AC38          ; LV # Lo       HANGUL SYLLABLE GYA",
text! "AC54          ; LV # Lo       HANGUL SYLLABLE GYAE"]

/-- lines 705-768 -/
def breakProperty11 : List Nat := [
text! "AC70          ; LV # Lo       HANGUL SYLLABLE GEO",
text! "AC8C          ; LV # Lo       HANGUL SYLLABLE GE",
text! "ACA8          ; LV # Lo       HANGUL SYLLABLE GYEO",
text! "ACC4          ; LV # Lo       HANGUL SYLLABLE GYE",
text! "ACE0          ; LV # Lo       HANGUL SYLLABLE GO",
text! "ACFC          ; LV # Lo       HANGUL SYLLABLE GWA",
text! "AD18          ; LV # Lo       HANGUL SYLLABLE GWAE",
text! "AD34          ; LV # Lo       HANGUL SYLLABLE GOE",
text! "AD50          ; LV # Lo       HANGUL SYLLABLE GYO",
text! "AD6C          ; LV # Lo       HANGUL SYLLABLE GU",
text! "AD88          ; LV # Lo       HANGUL SYLLABLE GWEO",
text! "ADA4          ; LV # Lo       HANGUL SYLLABLE GWE",
text! "ADC0          ; LV # Lo       HANGUL SYLLABLE GWI",
text! "ADDC          ; LV # Lo       HANGUL SYLLABLE GYU",
text! "ADF8          ; LV # Lo       HANGUL SYLLABLE GEU",
text! "AE14          ; LV # Lo       HANGUL SYLLABLE GYI",
text! "AE30          ; LV # Lo       HANGUL SYLLABLE GI",
text! "AE4C          ; LV # Lo       HANGUL SYLLABLE GGA",
text! "AE68          ; LV # Lo       HANGUL SYLLABLE GGAE",
text! "AE84          ; LV # Lo       HANGUL SYLLABLE GGYA",
text! "AEA0          ; LV # Lo       HANGUL SYLLABLE GGYAE",
text! "AEBC          ; LV # Lo       HANGUL SYLLABLE GGEO",
text! "AED8          ; LV # Lo       HANGUL SYLLABLE GGE",
text! "AEF4          ; LV # Lo       HANGUL SYLLABLE GGYEO",
text! "AF10          ; LV # Lo       HANGUL SYLLABLE GGYE",
text! "AF2C          ; LV # Lo       HANGUL SYLLABLE GGO",
text! "AF48          ; LV # Lo       HANGUL SYLLABLE GGWA",
text! "AF64          ; LV # Lo       HANGUL SYLLABLE GGWAE",
text! "AF80          ; LV # Lo       HANGUL SYLLABLE GGOE",
text! "AF9C          ; LV # Lo       HANGUL SYLLABLE GGYO",
text! "AFB8          ; LV # Lo       HANGUL SYLLABLE GGU",
text! "AFD4          ; LV # Lo       HANGUL SYLLABLE GGWEO",
text! "AFF0          ; LV # Lo       HANGUL SYLLABLE GGWE",
text! "B00C          ; LV # Lo       HANGUL SYLLABLE GGWI",
text! "B028          ; LV # Lo       HANGUL SYLLABLE GGYU",
text! "B044          ; LV # Lo       HANGUL SYLLABLE GGEU",
text! "B060          ; LV # Lo       HANGUL SYLLABLE GGYI",
text! "B07C          ; LV # Lo       HANGUL SYLLABLE GGI",
text! "B098          ; LV # Lo       HANGUL SYLLABLE NA",
text! "B0B4          ; LV # Lo       HANGUL SYLLABLE NAE",
text! "B0D0          ; LV # Lo       HANGUL SYLLABLE NYA",
text! "B0EC          ; LV # Lo       HANGUL SYLLABLE NYAE",
text! "B108          ; LV # Lo       HANGUL SYLLABLE NEO",
text! "B124          ; LV # Lo       HANGUL SYLLABLE NE",
text! "B140          ; LV # Lo       HANGUL SYLLABLE NYEO",
text! "B15C          ; LV # Lo       HANGUL SYLLABLE NYE",
text! "B178          ; LV # Lo       HANGUL SYLLABLE NO",
text! "B194          ; LV # Lo       HANGUL SYLLABLE NWA",
text! "B1B0          ; LV # Lo       HANGUL SYLLABLE NWAE",
text! "B1CC          ; LV # Lo       HANGUL SYLLABLE NOE",
text! "B1E8          ; LV # Lo       HANGUL SYLLABLE NYO",
text! "B204          ; LV # Lo       HANGUL SYLLABLE NU",
text! "B220          ; LV # Lo       HANGUL SYLLABLE NWEO",
text! "B23C          ; LV # Lo       HANGUL SYLLABLE NWE",
text! "B258          ; LV # Lo       HANGUL SYLLABLE NWI",
text! "B274          ; LV # Lo       HANGUL SYLLABLE NYU",
text! "B290          ; LV # Lo       HANGUL SYLLABLE NEU",
text! "B2AC          ; LV # Lo       HANGUL SYLLABLE NYI",
text! "B2C8          ; LV # Lo       HANGUL SYLLABLE NI",
text! "B2E4          ; LV # Lo       HANGUL SYLLABLE DA",
text! "B300          ; LV # Lo       HANGUL SYLLABLE DAE",
text! "B31C          ; LV # Lo       HANGUL SYLLABLE DYA",
text! "B338          ; LV # Lo       HANGUL SYLLABLE DYAE",
text! "B354          ; LV # Lo       HANGUL SYLLABLE DEO"]

/-- lines 769-832 -/
def breakProperty12 : List Nat := [
text! "B370          ; LV # Lo       HANGUL SYLLABLE DE",
text! "B38C          ; LV # Lo       HANGUL SYLLABLE DYEO",
text! "B3A8          ; LV # Lo       HANGUL SYLLABLE DYE",
text! "B3C4          ; LV # Lo       HANGUL SYLLABLE DO",
text! "B3E0          ; LV # Lo       HANGUL SYLLABLE DWA",
text! "B3FC          ; LV # Lo       HANGUL SYLLABLE DWAE",
text! "B418          ; LV # Lo       HANGUL SYLLABLE DOE",
text! "B434          ; LV # Lo       HANGUL SYLLABLE DYO",
text! "B450          ; LV # Lo       HANGUL SYLLABLE DU",
text! "B46C          ; LV # Lo       HANGUL SYLLABLE DWEO",
text! "B488          ; LV # Lo       HANGUL SYLLABLE DWE",
text! "B4A4          ; LV # Lo       HANGUL SYLLABLE DWI",
text! "B4C0          ; LV # Lo       HANGUL SYLLABLE DYU",
text! "B4DC          ; LV # Lo       HANGUL SYLLABLE DEU",
text! "B4F8          ; LV # Lo       HANGUL SYLLABLE DYI",
text! "B514          ; LV # Lo       HANGUL SYLLABLE DI",
text! "B530          ; LV # Lo       HANGUL SYLLABLE DDA",
text! "B54C          ; LV # Lo       HANGUL SYLLABLE DDAE",
text! "B568          ; LV # Lo       HANGUL SYLLABLE DDYA",
text! "B584          ; LV # Lo       HANGUL SYLLABLE DDYAE",
text! "B5A0          ; LV # Lo       HANGUL SYLLABLE DDEO",
text! "B5BC          ; LV # Lo       HANGUL SYLLABLE DDE",
text! "B5D8          ; LV # Lo       HANGUL SYLLABLE DDYEO",
text! "B5F4          ; LV # Lo       HANGUL SYLLABLE DDYE",
text! "B610          ; LV # Lo       HANGUL SYLLABLE DDO",
text! "B62C          ; LV # Lo       HANGUL SYLLABLE DDWA",
text! "B648          ; LV # Lo       HANGUL SYLLABLE DDWAE",
text! "B664          ; LV # Lo       HANGUL SYLLABLE DDOE",
text! "B680          ; LV # Lo       HANGUL SYLLABLE DDYO",
text! "B69C          ; LV # Lo       HANGUL SYLLABLE DDU",
text! "B6B8          ; LV # Lo       HANGUL SYLLABLE DDWEO",
text! "B6D4          ; LV # Lo       HANGUL SYLLABLE DDWE",
text! "B6F0          ; LV # Lo       HANGUL SYLLABLE DDWI",
text! "B70C          ; LV # Lo       HANGUL SYLLABLE DDYU",
text! "B728          ; LV # Lo       HANGUL SYLLABLE DDEU",
text! "B744          ; LV # Lo       HANGUL SYLLABLE DDYI",
text! "B760          ; LV # Lo       HANGUL SYLLABLE DDI",
text! "B77C          ; LV # Lo       HANGUL SYLLABLE RA",
text! "B798          ; LV # Lo       HANGUL SYLLABLE RAE",
text! "B7B4          ; LV # Lo       HANGUL SYLLABLE RYA",
text! "B7D0          ; LV # Lo       HANGUL SYLLABLE RYAE",
text! "B7EC          ; LV # Lo       HANGUL SYLLABLE REO",
text! "B808          ; LV # Lo       HANGUL SYLLABLE RE",
text! "B824          ; LV # Lo       HANGUL SYLLABLE RYEO",
text! "B840          ; LV # Lo       HANGUL SYLLABLE RYE",
text! "B85C          ; LV # Lo       HANGUL SYLLABLE RO",
text! "B878          ; LV # Lo       HANGUL SYLLABLE RWA",
text! "B894          ; LV # Lo       HANGUL SYLLABLE RWAE",
text! "B8B0          ; LV # Lo       HANGUL SYLLABLE ROE",
text! "B8CC          ; LV # Lo       HANGUL SYLLABLE RYO",
text! "B8E8          ; LV # Lo       HANGUL SYLLABLE RU",
text! "B904          ; LV # Lo       HANGUL SYLLABLE RWEO",
text! "B920          ; LV # Lo       HANGUL SYLLABLE RWE",
text! "B93C          ; LV # Lo       HANGUL SYLLABLE RWI",
text! "B958          ; LV # Lo       HANGUL SYLLABLE RYU",
text! "B974          ; LV # Lo       HANGUL SYLLABLE REU",
text! "B990          ; LV # Lo       HANGUL SYLLABLE RYI",
text! "B9AC          ; LV # Lo       HANGUL SYLLABLE RI",
text! "B9C8          ; LV # Lo       HANGUL SYLLABLE MA",
text! "B9E4          ; LV # Lo       HANGUL SYLLABLE MAE",
text! "BA00          ; LV # Lo       HANGUL SYLLABLE MYA",
text! "BA1C          ; LV # Lo       HANGUL SYLLABLE MYAE",
text! "BA38          ; LV # Lo       HANGUL SYLLABLE MEO",
text! "BA54          ; LV # Lo       HANGUL SYLLABLE ME"]

/-- lines 833-896 -/
def breakProperty13 : List Nat := [
text! "BA70          ; LV # Lo       HANGUL SYLLABLE MYEO",
text! "BA8C          ; LV # Lo       HANGUL SYLLABLE MYE",
text! "BAA8          ; LV # Lo       HANGUL SYLLABLE MO",
text! "BAC4          ; LV # Lo       HANGUL SYLLABLE MWA",
text! "BAE0          ; LV # Lo       HANGUL SYLLABLE MWAE",
text! "BAFC          ; LV # Lo       HANGUL SYLLABLE MOE",
text! "BB18          ; LV # Lo       HANGUL SYLLABLE MYO",
text! "BB34          ; LV # Lo       HANGUL SYLLABLE MU",
text! "BB50          ; LV # Lo       HANGUL SYLLABLE MWEO",
text! "BB6C          ; LV # Lo       HANGUL SYLLABLE MWE",
text! "BB88          ; LV # Lo       HANGUL SYLLABLE MWI",
text! "BBA4          ; LV # Lo       HANGUL SYLLABLE MYU",
text! "BBC0          ; LV # Lo       HANGUL SYLLABLE MEU",
text! "BBDC          ; LV # Lo       HANGUL SYLLABLE MYI",
text! "BBF8          ; LV # Lo       HANGUL SYLLABLE MI",
text! "BC14          ; LV # Lo       HANGUL SYLLABLE BA",
text! "BC30          ; LV # Lo       HANGUL SYLLABLE BAE",
text! "BC4C          ; LV # Lo       HANGUL SYLLABLE BYA",
text! "BC68          ; LV # Lo       HANGUL SYLLABLE BYAE",
text! "BC84          ; LV # Lo       HANGUL SYLLABLE BEO",
text! "BCA0          ; LV # Lo       HANGUL SYLLABLE BE",
text! "BCBC          ; LV # Lo       HANGUL SYLLABLE BYEO",
text! "BCD8          ; LV # Lo       HANGUL SYLLABLE BYE",
text! "BCF4          ; LV # Lo       HANGUL SYLLABLE BO",
text! "BD10          ; LV # Lo       HANGUL SYLLABLE BWA",
text! "BD2C          ; LV # Lo       HANGUL SYLLABLE BWAE",
text! "BD48          ; LV # Lo       HANGUL SYLLABLE BOE",
text! "BD64          ; LV # Lo       HANGUL SYLLABLE BYO",
text! "BD80          ; LV # Lo       HANGUL SYLLABLE BU",
text! "BD9C          ; LV # Lo       HANGUL SYLLABLE BWEO",
text! "BDB8          ; LV # Lo       HANGUL SYLLABLE BWE",
text! "BDD4          ; LV # Lo       HANGUL SYLLABLE BWI",
text! "BDF0          ; LV # Lo       HANGUL SYLLABLE BYU",
text! "BE0C          ; LV # Lo       HANGUL SYLLABLE BEU",
text! "BE28          ; LV # Lo       HANGUL SYLLABLE BYI",
text! "BE44          ; LV # Lo       HANGUL SYLLABLE BI",
text! "BE60          ; LV # Lo       HANGUL SYLLABLE BBA",
text! "BE7C          ; LV # Lo       HANGUL SYLLABLE BBAE",
text! "BE98          ; LV # Lo       HANGUL SYLLABLE BBYA",
text! "BEB4          ; LV # Lo       HANGUL SYLLABLE BBYAE",
text! "BED0          ; LV # Lo       HANGUL SYLLABLE BBEO",
text! "BEEC          ; LV # Lo       HANGUL SYLLABLE BBE",
text! "BF08          ; LV # Lo       HANGUL SYLLABLE BBYEO",
text! "BF24          ; LV # Lo       HANGUL SYLLABLE BBYE",
text! "BF40          ; LV # Lo       HANGUL SYLLABLE BBO",
text! "BF5C          ; LV # Lo       HANGUL SYLLABLE BBWA",
text! "BF78          ; LV # Lo       HANGUL SYLLABLE BBWAE",
text! "BF94          ; LV # Lo       HANGUL SYLLABLE BBOE",
text! "BFB0          ; LV # Lo       HANGUL SYLLABLE BBYO",
text! "BFCC          ; LV # Lo       HANGUL SYLLABLE BBU",
text! "BFE8          ; LV # Lo       HANGUL SYLLABLE BBWEO",
text! "C004          ; LV # Lo       HANGUL SYLLABLE BBWE",
text! "C020          ; LV # Lo       HANGUL SYLLABLE BBWI",
text! "C03C          ; LV # Lo       HANGUL SYLLABLE BBYU",
text! "C058          ; LV # Lo       HANGUL SYLLABLE BBEU",
text! "C074          ; LV # Lo       HANGUL SYLLABLE BBYI",
text! "C090          ; LV # Lo       HANGUL SYLLABLE BBI",
text! "C0AC          ; LV # Lo       HANGUL SYLLABLE SA",
text! "C0C8          ; LV # Lo       HANGUL SYLLABLE SAE",
text! "C0E4          ; LV # Lo       HANGUL SYLLABLE SYA",
text! "C100          ; LV # Lo       HANGUL SYLLABLE SYAE",
text! "C11C          ; LV # Lo       HANGUL SYLLABLE SEO",
text! "C138          ; LV # Lo       HANGUL SYLLABLE SE",
text! "C154          ; LV # Lo       HANGUL SYLLABLE SYEO"]

/-- lines 897-960 -/
def breakProperty14 : List Nat := [
text! "C170          ; LV # Lo       HANGUL SYLLABLE SYE",
text! "C18C          ; LV # Lo       HANGUL SYLLABLE SO",
text! "C1A8          ; LV # Lo       HANGUL SYLLABLE SWA",
text! "C1C4          ; LV # Lo       HANGUL SYLLABLE SWAE",
text! "C1E0          ; LV # Lo       HANGUL SYLLABLE SOE",
text! "C1FC          ; LV # Lo       HANGUL SYLLABLE SYO",
text! "C218          ; LV # Lo       HANGUL SYLLABLE SU",
text! "C234          ; LV # Lo       HANGUL SYLLABLE SWEO",
text! "C250          ; LV # Lo       HANGUL SYLLABLE SWE",
text! "C26C          ; LV # Lo       HANGUL SYLLABLE SWI",
text! "C288          ; LV # Lo       HANGUL SYLLABLE SYU",
text! "C2A4          ; LV # Lo       HANGUL SYLLABLE SEU",
text! "C2C0          ; LV # Lo       HANGUL SYLLABLE SYI",
text! "C2DC          ; LV # Lo       HANGUL SYLLABLE SI",
text! "C2F8          ; LV # Lo       HANGUL SYLLABLE SSA",
text! "C314          ; LV # Lo       HANGUL SYLLABLE SSAE",
text! "C330          ; LV # Lo       HANGUL SYLLABLE SSYA",
text! "C34C          ; LV # Lo       HANGUL SYLLABLE SSYAE",
text! "C368          ; LV # Lo       HANGUL SYLLABLE SSEO",
text! "C384          ; LV # Lo       HANGUL SYLLABLE SSE",
text! "C3A0          ; LV # Lo       HANGUL SYLLABLE SSYEO",
text! "C3BC          ; LV # Lo       HANGUL SYLLABLE SSYE",
text! "C3D8          ; LV # Lo       HANGUL SYLLABLE SSO",
text! "C3F4          ; LV # Lo       HANGUL SYLLABLE SSWA",
text! "C410          ; LV # Lo       HANGUL SYLLABLE SSWAE",
text! "C42C          ; LV # Lo       HANGUL SYLLABLE SSOE",
text! "C448          ; LV # Lo       HANGUL SYLLABLE SSYO",
text! "C464          ; LV # Lo       HANGUL SYLLABLE SSU",
text! "C480          ; LV # Lo       HANGUL SYLLABLE SSWEO",
text! "C49C          ; LV # Lo       HANGUL SYLLABLE SSWE",
text! "C4B8          ; LV # Lo       HANGUL SYLLABLE SSWI",
text! "C4D4          ; LV # Lo       HANGUL SYLLABLE SSYU",
text! "C4F0          ; LV # Lo       HANGUL SYLLABLE SSEU",
text! "C50C          ; LV # Lo       HANGUL SYLLABLE SSYI",
text! "C528          ; LV # Lo       HANGUL SYLLABLE SSI",
text! "C544          ; LV # Lo       HANGUL SYLLABLE A",
text! "C560          ; LV # Lo       HANGUL SYLLABLE AE",
text! "C57C          ; LV # Lo       HANGUL SYLLABLE YA",
text! "C598          ; LV # Lo       HANGUL SYLLABLE YAE",
text! "C5B4          ; LV # Lo       HANGUL SYLLABLE EO",
text! "C5D0          ; LV # Lo       HANGUL SYLLABLE E",
text! "C5EC          ; LV # Lo       HANGUL SYLLABLE YEO",
text! "C608          ; LV # Lo       HANGUL SYLLABLE YE",
text! "C624          ; LV # Lo       HANGUL SYLLABLE O",
text! "C640          ; LV # Lo       HANGUL SYLLABLE WA",
text! "C65C          ; LV # Lo       HANGUL SYLLABLE WAE",
text! "C678          ; LV # Lo       HANGUL SYLLABLE OE",
text! "C694          ; LV # Lo       HANGUL SYLLABLE YO",
text! "C6B0          ; LV # Lo       HANGUL SYLLABLE U",
text! "C6CC          ; LV # Lo       HANGUL SYLLABLE WEO",
text! "C6E8          ; LV # Lo       HANGUL SYLLABLE WE",
text! "C704          ; LV # Lo       HANGUL SYLLABLE WI",
text! "C720          ; LV # Lo       HANGUL SYLLABLE YU",
text! "C73C          ; LV # Lo       HANGUL SYLLABLE EU",
text! "C758          ; LV # Lo       HANGUL SYLLABLE YI",
text! "C774          ; LV # Lo       HANGUL SYLLABLE I",
text! "C790          ; LV # Lo       HANGUL SYLLABLE JA",
text! "C7AC          ; LV # Lo       HANGUL SYLLABLE JAE",
text! "C7C8          ; LV # Lo       HANGUL SYLLABLE JYA",
text! "C7E4          ; LV # Lo       HANGUL SYLLABLE JYAE",
text! "C800          ; LV # Lo       HANGUL SYLLABLE JEO",
text! "C81C          ; LV # Lo       HANGUL SYLLABLE JE",
text! "C838          ; LV # Lo       HANGUL SYLLABLE JYEO",
text! "C854          ; LV # Lo       HANGUL SYLLABLE JYE"]

/-- lines 961-1024 -/
def breakProperty15 : List Nat := [
text! "C870          ; LV # Lo       HANGUL SYLLABLE JO",
text! "C88C          ; LV # Lo       HANGUL SYLLABLE JWA",
text! "C8A8          ; LV # Lo       HANGUL SYLLABLE JWAE",
text! "C8C4          ; LV # Lo       HANGUL SYLLABLE JOE",
text! "C8E0          ; LV # Lo       HANGUL SYLLABLE JYO",
text! "C8FC          ; LV # Lo       HANGUL SYLLABLE JU",
text! "C918          ; LV # Lo       HANGUL SYLLABLE JWEO",
text! "C934          ; LV # Lo       HANGUL SYLLABLE JWE",
text! "C950          ; LV # Lo       HANGUL SYLLABLE JWI",
text! "C96C          ; LV # Lo       HANGUL SYLLABLE JYU",
text! "C988          ; LV # Lo       HANGUL SYLLABLE JEU",
text! "C9A4          ; LV # Lo       HANGUL SYLLABLE JYI",
text! "C9C0          ; LV # Lo       HANGUL SYLLABLE JI",
text! "C9DC          ; LV # Lo       HANGUL SYLLABLE JJA",
text! "C9F8          ; LV # Lo       HANGUL SYLLABLE JJAE",
text! "CA14          ; LV # Lo       HANGUL SYLLABLE JJYA",
text! "CA30          ; LV # Lo       HANGUL SYLLABLE JJYAE",
text! "CA4C          ; LV # Lo       HANGUL SYLLABLE JJEO",
text! "CA68          ; LV # Lo       HANGUL SYLLABLE JJE",
text! "CA84          ; LV # Lo       HANGUL SYLLABLE JJYEO",
text! "CAA0          ; LV # Lo       HANGUL SYLLABLE JJYE",
text! "CABC          ; LV # Lo       HANGUL SYLLABLE JJO",
text! "CAD8          ; LV # Lo       HANGUL SYLLABLE JJWA",
text! "CAF4          ; LV # Lo       HANGUL SYLLABLE JJWAE",
text! "CB10          ; LV # Lo       HANGUL SYLLABLE JJOE",
text! "CB2C          ; LV # Lo       HANGUL SYLLABLE JJYO",
text! "CB48          ; LV # Lo       HANGUL SYLLABLE JJU",
text! "CB64          ; LV # Lo       HANGUL SYLLABLE JJWEO",
text! "CB80          ; LV # Lo       HANGUL SYLLABLE JJWE",
text! "CB9C          ; LV # Lo       HANGUL SYLLABLE JJWI",
text! "CBB8          ; LV # Lo       HANGUL SYLLABLE JJYU",
text! "CBD4          ; LV # Lo       HANGUL SYLLABLE JJEU",
text! "CBF0          ; LV # Lo       HANGUL SYLLABLE JJYI",
text! "CC0C          ; LV # Lo       HANGUL SYLLABLE JJI",
text! "CC28          ; LV # Lo       HANGUL SYLLABLE CA",
text! "CC44          ; LV # Lo       HANGUL SYLLABLE CAE",
text! "CC60          ; LV # Lo       HANGUL SYLLABLE CYA",
text! "CC7C          ; LV # Lo       HANGUL SYLLABLE CYAE",
text! "CC98          ; LV # Lo       HANGUL SYLLABLE CEO",
text! "CCB4          ; LV # Lo       HANGUL SYLLABLE CE",
text! "CCD0          ; LV # Lo       HANGUL SYLLABLE CYEO",
text! "CCEC          ; LV # Lo       HANGUL SYLLABLE CYE",
text! "CD08          ; LV # Lo       HANGUL SYLLABLE CO",
text! "CD24          ; LV # Lo       HANGUL SYLLABLE CWA",
text! "CD40          ; LV # Lo       HANGUL SYLLABLE CWAE",
text! "CD5C          ; LV # Lo       HANGUL SYLLABLE COE",
text! "CD78          ; LV # Lo       HANGUL SYLLABLE CYO",
text! "CD94          ; LV # Lo       HANGUL SYLLABLE CU",
text! "CDB0          ; LV # Lo       HANGUL SYLLABLE CWEO",
text! "CDCC          ; LV # Lo       HANGUL SYLLABLE CWE",
text! "CDE8          ; LV # Lo       HANGUL SYLLABLE CWI",
text! "CE04          ; LV # Lo       HANGUL SYLLABLE CYU",
text! "CE20          ; LV # Lo       HANGUL SYLLABLE CEU",
text! "CE3C          ; LV # Lo       HANGUL SYLLABLE CYI",
text! "CE58          ; LV # Lo       HANGUL SYLLABLE CI",
text! "CE74          ; LV # Lo       HANGUL SYLLABLE KA",
text! "CE90          ; LV # Lo       HANGUL SYLLABLE KAE",
text! "CEAC          ; LV # Lo       HANGUL SYLLABLE KYA",
text! "CEC8          ; LV # Lo       HANGUL SYLLABLE KYAE",
text! "CEE4          ; LV # Lo       HANGUL SYLLABLE KEO",
text! "CF00          ; LV # Lo       HANGUL SYLLABLE KE",
text! "CF1C          ; LV # Lo       HANGUL SYLLABLE KYEO",
text! "CF38          ; LV # Lo       HANGUL SYLLABLE KYE",
text! "CF54          ; LV # Lo       HANGUL SYLLABLE KO"]

/-- lines 1025-1088 -/
def breakProperty16 : List Nat := [
text! "CF70          ; LV # Lo       HANGUL SYLLABLE KWA",
text! "CF8C          ; LV # Lo       HANGUL SYLLABLE KWAE",
text! "CFA8          ; LV # Lo       HANGUL SYLLABLE KOE",
text! "CFC4          ; LV # Lo       HANGUL SYLLABLE KYO",
text! "CFE0          ; LV # Lo       HANGUL SYLLABLE KU",
text! "CFFC          ; LV # Lo       HANGUL SYLLABLE KWEO",
text! "D018          ; LV # Lo       HANGUL SYLLABLE KWE",
text! "D034          ; LV # Lo       HANGUL SYLLABLE KWI",
text! "D050          ; LV # Lo       HANGUL SYLLABLE KYU",
text! "D06C          ; LV # Lo       HANGUL SYLLABLE KEU",
text! "D088          ; LV # Lo       HANGUL SYLLABLE KYI",
text! "D0A4          ; LV # Lo       HANGUL SYLLABLE KI",
text! "D0C0          ; LV # Lo       HANGUL SYLLABLE TA",
text! "D0DC          ; LV # Lo       HANGUL SYLLABLE TAE",
text! "D0F8          ; LV # Lo       HANGUL SYLLABLE TYA",
text! "D114          ; LV # Lo       HANGUL SYLLABLE TYAE",
text! "D130          ; LV # Lo       HANGUL SYLLABLE TEO",
text! "D14C          ; LV # Lo       HANGUL SYLLABLE TE",
text! "D168          ; LV # Lo       HANGUL SYLLABLE TYEO",
text! "D184          ; LV # Lo       HANGUL SYLLABLE TYE",
text! "D1A0          ; LV # Lo       HANGUL SYLLABLE TO",
text! "D1BC          ; LV # Lo       HANGUL SYLLABLE TWA",
text! "D1D8          ; LV # Lo       HANGUL SYLLABLE TWAE",
text! "D1F4          ; LV # Lo       HANGUL SYLLABLE TOE",
text! "D210          ; LV # Lo       HANGUL SYLLABLE TYO",
text! "D22C          ; LV # Lo       HANGUL SYLLABLE TU",
text! "D248          ; LV # Lo       HANGUL SYLLABLE TWEO",
text! "D264          ; LV # Lo       HANGUL SYLLABLE TWE",
text! "D280          ; LV # Lo       HANGUL SYLLABLE TWI",
text! "D29C          ; LV # Lo       HANGUL SYLLABLE TYU",
text! "D2B8          ; LV # Lo       HANGUL SYLLABLE TEU",
text! "D2D4          ; LV # Lo       HANGUL SYLLABLE TYI",
text! "D2F0          ; LV # Lo       HANGUL SYLLABLE TI",
text! "D30C          ; LV # Lo       HANGUL SYLLABLE PA",
text! "D328          ; LV # Lo       HANGUL SYLLABLE PAE",
text! "D344          ; LV # Lo       HANGUL SYLLABLE PYA",
text! "D360          ; LV # Lo       HANGUL SYLLABLE PYAE",
text! "D37C          ; LV # Lo       HANGUL SYLLABLE PEO",
text! "D398          ; LV # Lo       HANGUL SYLLABLE PE",
text! "D3B4          ; LV # Lo       HANGUL SYLLABLE PYEO",
text! "D3D0          ; LV # Lo       HANGUL SYLLABLE PYE",
text! "D3EC          ; LV # Lo       HANGUL SYLLABLE PO",
text! "D408          ; LV # Lo       HANGUL SYLLABLE PWA",
text! "D424          ; LV # Lo       HANGUL SYLLABLE PWAE",
text! "D440          ; LV # Lo       HANGUL SYLLABLE POE",
text! "D45C          ; LV # Lo       HANGUL SYLLABLE PYO",
text! "D478          ; LV # Lo       HANGUL SYLLABLE PU",
text! "D494          ; LV # Lo       HANGUL SYLLABLE PWEO",
text! "D4B0          ; LV # Lo       HANGUL SYLLABLE PWE",
text! "D4CC          ; LV # Lo       HANGUL SYLLABLE PWI",
text! "D4E8          ; LV # Lo       HANGUL SYLLABLE PYU",
text! "D504          ; LV # Lo       HANGUL SYLLABLE PEU",
text! "D520          ; LV # Lo       HANGUL SYLLABLE PYI",
text! "D53C          ; LV # Lo       HANGUL SYLLABLE PI",
text! "D558          ; LV # Lo       HANGUL SYLLABLE HA",
text! "D574          ; LV # Lo       HANGUL SYLLABLE HAE",
text! "D590          ; LV # Lo       HANGUL SYLLABLE HYA",
text! "D5AC          ; LV # Lo       HANGUL SYLLABLE HYAE",
text! "D5C8          ; LV # Lo       HANGUL SYLLABLE HEO",
text! "D5E4          ; LV # Lo       HANGUL SYLLABLE HE",
text! "D600          ; LV # Lo       HANGUL SYLLABLE HYEO",
text! "D61C          ; LV # Lo       HANGUL SYLLABLE HYE",
text! "D638          ; LV # Lo       HANGUL SYLLABLE HO",
text! "D654          ; LV # Lo       HANGUL SYLLABLE HWA"]

/-- lines 1089-1152 -/
def breakProperty17 : List Nat := [
text! "D670          ; LV # Lo       HANGUL SYLLABLE HWAE",
text! "D68C          ; LV # Lo       HANGUL SYLLABLE HOE",
text! "D6A8          ; LV # Lo       HANGUL SYLLABLE HYO",
text! "D6C4          ; LV # Lo       HANGUL SYLLABLE HU",
text! "D6E0          ; LV # Lo       HANGUL SYLLABLE HWEO",
text! "D6FC          ; LV # Lo       HANGUL SYLLABLE HWE",
text! "D718          ; LV # Lo       HANGUL SYLLABLE HWI",
text! "D734          ; LV # Lo       HANGUL SYLLABLE HYU",
text! "D750          ; LV # Lo       HANGUL SYLLABLE HEU",
text! "D76C          ; LV # Lo       HANGUL SYLLABLE HYI",
text! "D788          ; LV # Lo       HANGUL SYLLABLE HI",
text! "",
text! "# Total code points: 399",
text! "",
text! "# ================================================",
text! "",
text! "AC01..AC1B    ; LVT # Lo  [27] HANGUL SYLLABLE GAG..HANGUL SYLLABLE GAH",
text! "AC1D..AC37    ; LVT # Lo  [27] HANGUL SYLLABLE GAEG..HANGUL SYLLABLE GAEH",
text! "AC39..AC53    ; LVT # Lo  [27] HANGUL SYLLABLE GYAG..HANGUL SYLLABLE GYAH",
text! "AC55..AC6F    ; LVT # Lo  [27] HANGUL SYLLABLE GYAEG..HANGUL SYLLABLE GYAEH",
text! "AC71..AC8B    ; LVT # Lo  [27] HANGUL SYLLABLE GEOG..HANGUL SYLLABLE GEOH",
text! "AC8D..ACA7    ; LVT # Lo  [27] HANGUL SYLLABLE GEG..HANGUL SYLLABLE GEH",
text! "ACA9..ACC3    ; LVT # Lo  [27] HANGUL SYLLABLE GYEOG..HANGUL SYLLABLE GYEOH",
text! "ACC5..ACDF    ; LVT # Lo  [27] HANGUL SYLLABLE GYEG..HANGUL SYLLABLE GYEH",
text! "ACE1..ACFB    ; LVT # Lo  [27] HANGUL SYLLABLE GOG..HANGUL SYLLABLE GOH",
text! "ACFD..AD17    ; LVT # Lo  [27] HANGUL SYLLABLE GWAG..HANGUL SYLLABLE GWAH",
text! "AD19..AD33    ; LVT # Lo  [27] HANGUL SYLLABLE GWAEG..HANGUL SYLLABLE GWAEH",
text! "AD35..AD4F    ; LVT # Lo  [27] HANGUL SYLLABLE GOEG..HANGUL SYLLABLE GOEH",
text! "AD51..AD6B    ; LVT # Lo  [27] HANGUL SYLLABLE GYOG..HANGUL SYLLABLE GYOH",
text! "AD6D..AD87    ; LVT # Lo  [27] HANGUL SYLLABLE GUG..HANGUL SYLLABLE GUH",
text! "AD89..ADA3    ; LVT # Lo  [27] HANGUL SYLLABLE GWEOG..HANGUL SYLLABLE GWEOH",
text! "ADA5..ADBF    ; LVT # Lo  [27] HANGUL SYLLABLE GWEG..HANGUL SYLLABLE GWEH",
text! "ADC1..ADDB    ; LVT # Lo  [27] HANGUL SYLLABLE GWIG..HANGUL SYLLABLE GWIH",
text! "ADDD..ADF7    ; LVT # Lo  [27] HANGUL SYLLABLE GYUG..HANGUL SYLLABLE GYUH",
text! "ADF9..AE13    ; LVT # Lo  [27] HANGUL SYLLABLE GEUG..HANGUL SYLLABLE GEUH",
text! "AE15..AE2F    ; LVT # Lo  [27] HANGUL SYLLABLE GYIG..HANGUL SYLLABLE GYIH",
text! "AE31..AE4B    ; LVT # Lo  [27] HANGUL SYLLABLE GIG..HANGUL SYLLABLE GIH",
text! "AE4D..AE67    ; LVT # Lo  [27] HANGUL SYLLABLE GGAG..HANGUL SYLLABLE GGAH",
text! "AE69..AE83    ; LVT # Lo  [27] HANGUL SYLLABLE GGAEG..HANGUL SYLLABLE GGAEH",
text! "AE85..AE9F    ; LVT # Lo  [27] HANGUL SYLLABLE GGYAG..HANGUL SYLLABLE GGYAH",
text! "AEA1..AEBB    ; LVT # Lo  [27] HANGUL SYLLABLE GGYAEG..HANGUL SYLLABLE GGYAEH",
text! "AEBD..AED7    ; LVT # Lo  [27] HANGUL SYLLABLE GGEOG..HANGUL SYLLABLE GGEOH",
text! "AED9..AEF3    ; LVT # Lo  [27] HANGUL SYLLABLE GGEG..HANGUL SYLLABLE GGEH",
text! "AEF5..AF0F    ; LVT # Lo  [27] HANGUL SYLLABLE GGYEOG..HANGUL SYLLABLE GGYEOH",
text! "AF11..AF2B    ; LVT # Lo  [27] HANGUL SYLLABLE GGYEG..HANGUL SYLLABLE GGYEH",
text! "AF2D..AF47    ; LVT # Lo  [27] HANGUL SYLLABLE GGOG..HANGUL SYLLABLE GGOH",
text! "AF49..AF63    ; LVT # Lo  [27] HANGUL SYLLABLE GGWAG..HANGUL SYLLABLE GGWAH",
text! "AF65..AF7F    ; LVT # Lo  [27] HANGUL SYLLABLE GGWAEG..HANGUL SYLLABLE GGWAEH",
text! "AF81..AF9B    ; LVT # Lo  [27] HANGUL SYLLABLE GGOEG..HANGUL SYLLABLE GGOEH",
text! "AF9D..AFB7    ; LVT # Lo  [27] HANGUL SYLLABLE GGYOG..HANGUL SYLLABLE GGYOH",
text! "AFB9..AFD3    ; LVT # Lo  [27] HANGUL SYLLABLE GGUG..HANGUL SYLLABLE GGUH",
text! "AFD5..AFEF    ; LVT # Lo  [27] HANGUL SYLLABLE GGWEOG..HANGUL SYLLABLE GGWEOH",
text! "AFF1..B00B    ; LVT # Lo  [27] HANGUL SYLLABLE GGWEG..HANGUL SYLLABLE GGWEH",
text! "B00D..B027    ; LVT # Lo  [27] HANGUL SYLLABLE GGWIG..HANGUL SYLLABLE GGWIH",
text! "B029..B043    ; LVT # Lo  [27] HANGUL SYLLABLE GGYUG..HANGUL SYLLABLE GGYUH",
text! "B045..B05F    ; LVT # Lo  [27] HANGUL SYLLABLE GGEUG..HANGUL SYLLABLE GGEUH",
text! "B061..B07B    ; LVT # Lo  [27] HANGUL SYLLABLE GGYIG..HANGUL SYLLABLE GGYIH",
text! "B07D..B097    ; LVT # Lo  [27] HANGUL SYLLABLE GGIG..HANGUL SYLLABLE GGIH",
text! "B099..B0B3    ; LVT # Lo  [27] HANGUL SYLLABLE NAG..HANGUL SYLLABLE NAH",
text! "B0B5..B0CF    ; LVT # Lo  [27] HANGUL SYLLABLE NAEG..HANGUL SYLLABLE NAEH",
text! "B0D1..B0EB    ; LVT # Lo  [27] HANGUL SYLLABLE NYAG..HANGUL SYLLABLE NYAH",
text! "B0ED..B107    ; LVT # Lo  [27] HANGUL SYLLABLE NYAEG..HANGUL SYLLABLE NYAEH",
text! "B109..B123    ; LVT # Lo  [27] HANGUL SYLLABLE NEOG..HANGUL SYLLABLE NEOH",
text! "B125..B13F    ; LVT # Lo  [27] HANGUL SYLLABLE NEG..HANGUL SYLLABLE NEH"]

/-- lines 1153-1216 -/
def breakProperty18 : List Nat := [
text! "B141..B15B    ; LVT # Lo  [27] HANGUL SYLLABLE NYEOG..HANGUL SYLLABLE NYEOH",
text! "B15D..B177    ; LVT # Lo  [27] HANGUL SYLLABLE NYEG..HANGUL SYLLABLE NYEH",
text! "B179..B193    ; LVT # Lo  [27] HANGUL SYLLABLE NOG..HANGUL SYLLABLE NOH",
text! "B195..B1AF    ; LVT # Lo  [27] HANGUL SYLLABLE NWAG..HANGUL SYLLABLE NWAH",
text! "B1B1..B1CB    ; LVT # Lo  [27] HANGUL SYLLABLE NWAEG..HANGUL SYLLABLE NWAEH",
text! "B1CD..B1E7    ; LVT # Lo  [27] HANGUL SYLLABLE NOEG..HANGUL SYLLABLE NOEH",
text! "B1E9..B203    ; LVT # Lo  [27] HANGUL SYLLABLE NYOG..HANGUL SYLLABLE NYOH",
text! "B205..B21F    ; LVT # Lo  [27] HANGUL SYLLABLE NUG..HANGUL SYLLABLE NUH",
text! "B221..B23B    ; LVT # Lo  [27] HANGUL SYLLABLE NWEOG..HANGUL SYLLABLE NWEOH",
text! "B23D..B257    ; LVT # Lo  [27] HANGUL SYLLABLE NWEG..HANGUL SYLLABLE NWEH",
text! "B259..B273    ; LVT # Lo  [27] HANGUL SYLLABLE NWIG..HANGUL SYLLABLE NWIH",
text! "B275..B28F    ; LVT # Lo  [27] HANGUL SYLLABLE NYUG..HANGUL SYLLABLE NYUH",
text! "B291..B2AB    ; LVT # Lo  [27] HANGUL SYLLABLE NEUG..HANGUL SYLLABLE NEUH",
text! "B2AD..B2C7    ; LVT # Lo  [27] HANGUL SYLLABLE NYIG..HANGUL SYLLABLE NYIH",
text! "B2C9..B2E3    ; LVT # Lo  [27] HANGUL SYLLABLE NIG..HANGUL SYLLABLE NIH",
text! "B2E5..B2FF    ; LVT # Lo  [27] HANGUL SYLLABLE DAG..HANGUL SYLLABLE DAH",
text! "B301..B31B    ; LVT # Lo  [27] HANGUL SYLLABLE DAEG..HANGUL SYLLABLE DAEH",
text! "B31D..B337    ; LVT # Lo  [27] HANGUL SYLLABLE DYAG..HANGUL SYLLABLE DYAH",
text! "B339..B353    ; LVT # Lo  [27] HANGUL SYLLABLE DYAEG..HANGUL SYLLABLE DYAEH",
text! "B355..B36F    ; LVT # Lo  [27] HANGUL SYLLABLE DEOG..HANGUL SYLLABLE DEOH",
text! "B371..B38B    ; LVT # Lo  [27] HANGUL SYLLABLE DEG..HANGUL SYLLABLE DEH",
text! "B38D..B3A7    ; LVT # Lo  [27] HANGUL SYLLABLE DYEOG..HANGUL SYLLABLE DYEOH",
text! "B3A9..B3C3    ; LVT # Lo  [27] HANGUL SYLLABLE DYEG..HANGUL SYLLABLE DYEH",
text! "B3C5..B3DF    ; LVT # Lo  [27] HANGUL SYLLABLE DOG..HANGUL SYLLABLE DOH",
text! "B3E1..B3FB    ; LVT # Lo  [27] HANGUL SYLLABLE DWAG..HANGUL SYLLABLE DWAH",
text! "B3FD..B417    ; LVT # Lo  [27] HANGUL SYLLABLE DWAEG..HANGUL SYLLABLE DWAEH",
text! "B419..B433    ; LVT # Lo  [27] HANGUL SYLLABLE DOEG..HANGUL SYLLABLE DOEH",
text! "B435..B44F    ; LVT # Lo  [27] HANGUL SYLLABLE DYOG..HANGUL SYLLABLE DYOH",
text! "B451..B46B    ; LVT # Lo  [27] HANGUL SYLLABLE DUG..HANGUL SYLLABLE DUH",
text! "B46D..B487    ; LVT # Lo  [27] HANGUL SYLLABLE DWEOG..HANGUL SYLLABLE DWEOH",
text! "B489..B4A3    ; LVT # Lo  [27] HANGUL SYLLABLE DWEG..HANGUL SYLLABLE DWEH",
text! "B4A5..B4BF    ; LVT # Lo  [27] HANGUL SYLLABLE DWIG..HANGUL SYLLABLE DWIH",
text! "B4C1..B4DB    ; LVT # Lo  [27] HANGUL SYLLABLE DYUG..HANGUL SYLLABLE DYUH",
text! "B4DD..B4F7    ; LVT # Lo  [27] HANGUL SYLLABLE DEUG..HANGUL SYLLABLE DEUH",
text! "B4F9..B513    ; LVT # Lo  [27] HANGUL SYLLABLE DYIG..HANGUL SYLLABLE DYIH",
text! "B515..B52F    ; LVT # Lo  [27] HANGUL SYLLABLE DIG..HANGUL SYLLABLE DIH",
text! "B531..B54B    ; LVT # Lo  [27] HANGUL SYLLABLE DDAG..HANGUL SYLLABLE DDAH",
text! "B54D..B567    ; LVT # Lo  [27] HANGUL SYLLABLE DDAEG..HANGUL SYLLABLE DDAEH",
text! "B569..B583    ; LVT # Lo  [27] HANGUL SYLLABLE DDYAG..HANGUL SYLLABLE DDYAH",
text! "B585..B59F    ; LVT # Lo  [27] HANGUL SYLLABLE DDYAEG..HANGUL SYLLABLE DDYAEH",
text! "B5A1..B5BB    ; LVT # Lo  [27] HANGUL SYLLABLE DDEOG..HANGUL SYLLABLE DDEOH",
text! "B5BD..B5D7    ; LVT # Lo  [27] HANGUL SYLLABLE DDEG..HANGUL SYLLABLE DDEH",
text! "B5D9..B5F3    ; LVT # Lo  [27] HANGUL SYLLABLE DDYEOG..HANGUL SYLLABLE DDYEOH",
text! "B5F5..B60F    ; LVT # Lo  [27] HANGUL SYLLABLE DDYEG..HANGUL SYLLABLE DDYEH",
text! "B611..B62B    ; LVT # Lo  [27] HANGUL SYLLABLE DDOG..HANGUL SYLLABLE DDOH",
text! "B62D..B647    ; LVT # Lo  [27] HANGUL SYLLABLE DDWAG..HANGUL SYLLABLE DDWAH",
text! "B649..B663    ; LVT # Lo  [27] HANGUL SYLLABLE DDWAEG..HANGUL SYLLABLE DDWAEH",
text! "B665..B67F    ; LVT # Lo  [27] HANGUL SYLLABLE DDOEG..HANGUL SYLLABLE DDOEH",
text! "B681..B69B    ; LVT # Lo  [27] HANGUL SYLLABLE DDYOG..HANGUL SYLLABLE DDYOH",
text! "B69D..B6B7    ; LVT # Lo  [27] HANGUL SYLLABLE DDUG..HANGUL SYLLABLE DDUH",
text! "B6B9..B6D3    ; LVT # Lo  [27] HANGUL SYLLABLE DDWEOG..HANGUL SYLLABLE DDWEOH",
text! "B6D5..B6EF    ; LVT # Lo  [27] HANGUL SYLLABLE DDWEG..HANGUL SYLLABLE DDWEH",
text! "B6F1..B70B    ; LVT # Lo  [27] HANGUL SYLLABLE DDWIG..HANGUL SYLLABLE DDWIH",
text! "B70D..B727    ; LVT # Lo  [27] HANGUL SYLLABLE DDYUG..HANGUL SYLLABLE DDYUH",
text! "B729..B743    ; LVT # Lo  [27] HANGUL SYLLABLE DDEUG..HANGUL SYLLABLE DDEUH",
text! "B745..B75F    ; LVT # Lo  [27] HANGUL SYLLABLE DDYIG..HANGUL SYLLABLE DDYIH",
text! "B761..B77B    ; LVT # Lo  [27] HANGUL SYLLABLE DDIG..HANGUL SYLLABLE DDIH",
text! "B77D..B797    ; LVT # Lo  [27] HANGUL SYLLABLE RAG..HANGUL SYLLABLE RAH",
text! "B799..B7B3    ; LVT # Lo  [27] HANGUL SYLLABLE RAEG..HANGUL SYLLABLE RAEH",
text! "B7B5..B7CF    ; LVT # Lo  [27] HANGUL SYLLABLE RYAG..HANGUL SYLLABLE RYAH",
text! "B7D1..B7EB    ; LVT # Lo  [27] HANGUL SYLLABLE RYAEG..HANGUL SYLLABLE RYAEH",
text! "B7ED..B807    ; LVT # Lo  [27] HANGUL SYLLABLE REOG..HANGUL SYLLABLE REOH",
text! "B809..B823    ; LVT # Lo  [27] HANGUL SYLLABLE REG..HANGUL SYLLABLE REH",
text! "B825..B83F    ; LVT # Lo  [27] HANGUL SYLLABLE RYEOG..HANGUL SYLLABLE RYEOH"]

/-- lines 1217-1280 -/
def breakProperty19 : List Nat := [
text! "B841..B85B    ; LVT # Lo  [27] HANGUL SYLLABLE RYEG..HANGUL SYLLABLE RYEH",
text! "B85D..B877    ; LVT # Lo  [27] HANGUL SYLLABLE ROG..HANGUL SYLLABLE ROH",
text! "B879..B893    ; LVT # Lo  [27] HANGUL SYLLABLE RWAG..HANGUL SYLLABLE RWAH",
text! "B895..B8AF    ; LVT # Lo  [27] HANGUL SYLLABLE RWAEG..HANGUL SYLLABLE RWAEH",
text! "B8B1..B8CB    ; LVT # Lo  [27] HANGUL SYLLABLE ROEG..HANGUL SYLLABLE ROEH",
text! "B8CD..B8E7    ; LVT # Lo  [27] HANGUL SYLLABLE RYOG..HANGUL SYLLABLE RYOH",
text! "B8E9..B903    ; LVT # Lo  [27] HANGUL SYLLABLE RUG..HANGUL SYLLABLE RUH",
text! "B905..B91F    ; LVT # Lo  [27] HANGUL SYLLABLE RWEOG..HANGUL SYLLABLE RWEOH",
text! "B921..B93B    ; LVT # Lo  [27] HANGUL SYLLABLE RWEG..HANGUL SYLLABLE RWEH",
text! "B93D..B957    ; LVT # Lo  [27] HANGUL SYLLABLE RWIG..HANGUL SYLLABLE RWIH",
text! "B959..B973    ; LVT # Lo  [27] HANGUL SYLLABLE RYUG..HANGUL SYLLABLE RYUH",
text! "B975..B98F    ; LVT # Lo  [27] HANGUL SYLLABLE REUG..HANGUL SYLLABLE REUH",
text! "B991..B9AB    ; LVT # Lo  [27] HANGUL SYLLABLE RYIG..HANGUL SYLLABLE RYIH",
text! "B9AD..B9C7    ; LVT # Lo  [27] HANGUL SYLLABLE RIG..HANGUL SYLLABLE RIH",
text! "B9C9..B9E3    ; LVT # Lo  [27] HANGUL SYLLABLE MAG..HANGUL SYLLABLE MAH",
text! "B9E5..B9FF    ; LVT # Lo  [27] HANGUL SYLLABLE MAEG..HANGUL SYLLABLE MAEH",
text! "BA01..BA1B    ; LVT # Lo  [27] HANGUL SYLLABLE MYAG..HANGUL SYLLABLE MYAH",
text! "BA1D..BA37    ; LVT # Lo  [27] HANGUL SYLLABLE MYAEG..HANGUL SYLLABLE MYAEH",
text! "BA39..BA53    ; LVT # Lo  [27] HANGUL SYLLABLE MEOG..HANGUL SYLLABLE MEOH",
text! "BA55..BA6F    ; LVT # Lo  [27] HANGUL SYLLABLE MEG..HANGUL SYLLABLE MEH",
text! "BA71..BA8B    ; LVT # Lo  [27] HANGUL SYLLABLE MYEOG..HANGUL SYLLABLE MYEOH",
text! "BA8D..BAA7    ; LVT # Lo  [27] HANGUL SYLLABLE MYEG..HANGUL SYLLABLE MYEH",
text! "BAA9..BAC3    ; LVT # Lo  [27] HANGUL SYLLABLE MOG..HANGUL SYLLABLE MOH",
text! "BAC5..BADF    ; LVT # Lo  [27] HANGUL SYLLABLE MWAG..HANGUL SYLLABLE MWAH",
text! "BAE1..BAFB    ; LVT # Lo  [27] HANGUL SYLLABLE MWAEG..HANGUL SYLLABLE MWAEH",
text! "BAFD..BB17    ; LVT # Lo  [27] HANGUL SYLLABLE MOEG..HANGUL SYLLABLE MOEH",
text! "BB19..BB33    ; LVT # Lo  [27] HANGUL SYLLABLE MYOG..HANGUL SYLLABLE MYOH",
text! "BB35..BB4F    ; LVT # Lo  [27] HANGUL SYLLABLE MUG..HANGUL SYLLABLE MUH",
text! "BB51..BB6B    ; LVT # Lo  [27] HANGUL SYLLABLE MWEOG..HANGUL SYLLABLE MWEOH",
text! "BB6D..BB87    ; LVT # Lo  [27] HANGUL SYLLABLE MWEG..HANGUL SYLLABLE MWEH",
text! "BB89..BBA3    ; LVT # Lo  [27] HANGUL SYLLABLE MWIG..HANGUL SYLLABLE MWIH",
text! "BBA5..BBBF    ; LVT # Lo  [27] HANGUL SYLLABLE MYUG..HANGUL SYLLABLE MYUH",
text! "BBC1..BBDB    ; LVT # Lo  [27] HANGUL SYLLABLE MEUG..HANGUL SYLLABLE MEUH",
text! "BBDD..BBF7    ; LVT # Lo  [27] HANGUL SYLLABLE MYIG..HANGUL SYLLABLE MYIH",
text! "BBF9..BC13    ; LVT # Lo  [27] HANGUL SYLLABLE MIG..HANGUL SYLLABLE MIH",
text! "BC15..BC2F    ; LVT # Lo  [27] HANGUL SYLLABLE BAG..HANGUL SYLLABLE BAH",
text! "BC31..BC4B    ; LVT # Lo  [27] HANGUL SYLLABLE BAEG..HANGUL SYLLABLE BAEH",
text! "BC4D..BC67    ; LVT # Lo  [27] HANGUL SYLLABLE BYAG..HANGUL SYLLABLE BYAH",
text! "BC69..BC83    ; LVT # Lo  [27] HANGUL SYLLABLE BYAEG..HANGUL SYLLABLE BYAEH",
text! "BC85..BC9F    ; LVT # Lo  [27] HANGUL SYLLABLE BEOG..HANGUL SYLLABLE BEOH",
text! "BCA1..BCBB    ; LVT # Lo  [27] HANGUL SYLLABLE BEG..HANGUL SYLLABLE BEH",
text! "BCBD..BCD7    ; LVT # Lo  [27] HANGUL SYLLABLE BYEOG..HANGUL SYLLABLE BYEOH",
text! "BCD9..BCF3    ; LVT # Lo  [27] HANGUL SYLLABLE BYEG..HANGUL SYLLABLE BYEH",
text! "BCF5..BD0F    ; LVT # Lo  [27] HANGUL SYLLABLE BOG..HANGUL SYLLABLE BOH",
text! "BD11..BD2B    ; LVT # Lo  [27] HANGUL SYLLABLE BWAG..HANGUL SYLLABLE BWAH",
text! "BD2D..BD47    ; LVT # Lo  [27] HANGUL SYLLABLE BWAEG..HANGUL SYLLABLE BWAEH",
text! "BD49..BD63    ; LVT # Lo  [27] HANGUL SYLLABLE BOEG..HANGUL SYLLABLE BOEH",
text! "BD65..BD7F    ; LVT # Lo  [27] HANGUL SYLLABLE BYOG..HANGUL SYLLABLE BYOH",
text! "BD81..BD9B    ; LVT # Lo  [27] HANGUL SYLLABLE BUG..HANGUL SYLLABLE BUH",
text! "BD9D..BDB7    ; LVT # Lo  [27] HANGUL SYLLABLE BWEOG..HANGUL SYLLABLE BWEOH",
text! "BDB9..BDD3    ; LVT # Lo  [27] HANGUL SYLLABLE BWEG..HANGUL SYLLABLE BWEH",
text! "BDD5..BDEF    ; LVT # Lo  [27] HANGUL SYLLABLE BWIG..HANGUL SYLLABLE BWIH",
text! "BDF1..BE0B    ; LVT # Lo  [27] HANGUL SYLLABLE BYUG..HANGUL SYLLABLE BYUH",
text! "BE0D..BE27    ; LVT # Lo  [27] HANGUL SYLLABLE BEUG..HANGUL SYLLABLE BEUH",
text! "BE29..BE43    ; LVT # Lo  [27] HANGUL SYLLABLE BYIG..HANGUL SYLLABLE BYIH",
text! "BE45..BE5F    ; LVT # Lo  [27] HANGUL SYLLABLE BIG..HANGUL SYLLABLE BIH",
text! "BE61..BE7B    ; LVT # Lo  [27] HANGUL SYLLABLE BBAG..HANGUL SYLLABLE BBAH",
text! "BE7D..BE97    ; LVT # Lo  [27] HANGUL SYLLABLE BBAEG..HANGUL SYLLABLE BBAEH",
text! "BE99..BEB3    ; LVT # Lo  [27] HANGUL SYLLABLE BBYAG..HANGUL SYLLABLE BBYAH",
text! "BEB5..BECF    ; LVT # Lo  [27] HANGUL SYLLABLE BBYAEG..HANGUL SYLLABLE BBYAEH",
text! "BED1..BEEB    ; LVT # Lo  [27] HANGUL SYLLABLE BBEOG..HANGUL SYLLABLE BBEOH",
text! "BEED..BF07    ; LVT # Lo  [27] HANGUL SYLLABLE BBEG..HANGUL SYLLABLE BBEH",
text! "BF09..BF23    ; LVT # Lo  [27] HANGUL SYLLABLE BBYEOG..HANGUL SYLLABLE BBYEOH",
text! "BF25..BF3F    ; LVT # Lo  [27] HANGUL SYLLABLE BBYEG..HANGUL SYLLABLE BBYEH"]

/-- lines 1281-1344 -/
def breakProperty20 : List Nat := [
text! "BF41..BF5B    ; LVT # Lo  [27] HANGUL SYLLABLE BBOG..HANGUL SYLLABLE BBOH",
text! "BF5D..BF77    ; LVT # Lo  [27] HANGUL SYLLABLE BBWAG..HANGUL SYLLABLE BBWAH",
text! "BF79..BF93    ; LVT # Lo  [27] HANGUL SYLLABLE BBWAEG..HANGUL SYLLABLE BBWAEH",
text! "BF95..BFAF    ; LVT # Lo  [27] HANGUL SYLLABLE BBOEG..HANGUL SYLLABLE BBOEH",
text! "BFB1..BFCB    ; LVT # Lo  [27] HANGUL SYLLABLE BBYOG..HANGUL SYLLABLE BBYOH",
text! "BFCD..BFE7    ; LVT # Lo  [27] HANGUL SYLLABLE BBUG..HANGUL SYLLABLE BBUH",
text! "BFE9..C003    ; LVT # Lo  [27] HANGUL SYLLABLE BBWEOG..HANGUL SYLLABLE BBWEOH",
text! "C005..C01F    ; LVT # Lo  [27] HANGUL SYLLABLE BBWEG..HANGUL SYLLABLE BBWEH",
text! "C021..C03B    ; LVT # Lo  [27] HANGUL SYLLABLE BBWIG..HANGUL SYLLABLE BBWIH",
text! "C03D..C057    ; LVT # Lo  [27] HANGUL SYLLABLE BBYUG..HANGUL SYLLABLE BBYUH",
text! "C059..C073    ; LVT # Lo  [27] HANGUL SYLLABLE BBEUG..HANGUL SYLLABLE BBEUH",
text! "C075..C08F    ; LVT # Lo  [27] HANGUL SYLLABLE BBYIG..HANGUL SYLLABLE BBYIH",
text! "C091..C0AB    ; LVT # Lo  [27] HANGUL SYLLABLE BBIG..HANGUL SYLLABLE BBIH",
text! "C0AD..C0C7    ; LVT # Lo  [27] HANGUL SYLLABLE SAG..HANGUL SYLLABLE SAH",
text! "C0C9..C0E3    ; LVT # Lo  [27] HANGUL SYLLABLE SAEG..HANGUL SYLLABLE SAEH",
text! "C0E5..C0FF    ; LVT # Lo  [27] HANGUL SYLLABLE SYAG..HANGUL SYLLABLE SYAH",
text! "C101..C11B    ; LVT # Lo  [27] HANGUL SYLLABLE SYAEG..HANGUL SYLLABLE SYAEH",
text! "C11D..C137    ; LVT # Lo  [27] HANGUL SYLLABLE SEOG..HANGUL SYLLABLE SEOH",
text! "C139..C153    ; LVT # Lo  [27] HANGUL SYLLABLE SEG..HANGUL SYLLABLE SEH",
text! "C155..C16F    ; LVT # Lo  [27] HANGUL SYLLABLE SYEOG..HANGUL SYLLABLE SYEOH",
text! "C171..C18B    ; LVT # Lo  [27] HANGUL SYLLABLE SYEG..HANGUL SYLLABLE SYEH",
text! "C18D..C1A7    ; LVT # Lo  [27] HANGUL SYLLABLE SOG..HANGUL SYLLABLE SOH",
text! "C1A9..C1C3    ; LVT # Lo  [27] HANGUL SYLLABLE SWAG..HANGUL SYLLABLE SWAH",
text! "C1C5..C1DF    ; LVT # Lo  [27] HANGUL SYLLABLE SWAEG..HANGUL SYLLABLE SWAEH",
text! "C1E1..C1FB    ; LVT # Lo  [27] HANGUL SYLLABLE SOEG..HANGUL SYLLABLE SOEH",
text! "C1FD..C217    ; LVT # Lo  [27] HANGUL SYLLABLE SYOG..HANGUL SYLLABLE SYOH",
text! "C219..C233    ; LVT # Lo  [27] HANGUL SYLLABLE SUG..HANGUL SYLLABLE SUH",
text! "C235..C24F    ; LVT # Lo  [27] HANGUL SYLLABLE SWEOG..HANGUL SYLLABLE SWEOH",
text! "C251..C26B    ; LVT # Lo  [27] HANGUL SYLLABLE SWEG..HANGUL SYLLABLE SWEH",
text! "C26D..C287    ; LVT # Lo  [27] HANGUL SYLLABLE SWIG..HANGUL SYLLABLE SWIH",
text! "C289..C2A3    ; LVT # Lo  [27] HANGUL SYLLABLE SYUG..HANGUL SYLLABLE SYUH",
text! "C2A5..C2BF    ; LVT # Lo  [27] HANGUL SYLLABLE SEUG..HANGUL SYLLABLE SEUH",
text! "C2C1..C2DB    ; LVT # Lo  [27] HANGUL SYLLABLE SYIG..HANGUL SYLLABLE SYIH",
text! "C2DD..C2F7    ; LVT # Lo  [27] HANGUL SYLLABLE SIG..HANGUL SYLLABLE SIH",
text! "C2F9..C313    ; LVT # Lo  [27] HANGUL SYLLABLE SSAG..HANGUL SYLLABLE SSAH",
text! "C315..C32F    ; LVT # Lo  [27] HANGUL SYLLABLE SSAEG..HANGUL SYLLABLE SSAEH",
text! "C331..C34B    ; LVT # Lo  [27] HANGUL SYLLABLE SSYAG..HANGUL SYLLABLE SSYAH",
text! "C34D..C367    ; LVT # Lo  [27] HANGUL SYLLABLE SSYAEG..HANGUL SYLLABLE SSYAEH",
text! "C369..C383    ; LVT # Lo  [27] HANGUL SYLLABLE SSEOG..HANGUL SYLLABLE SSEOH",
text! "C385..C39F    ; LVT # Lo  [27] HANGUL SYLLABLE SSEG..HANGUL SYLLABLE SSEH",
text! "C3A1..C3BB    ; LVT # Lo  [27] HANGUL SYLLABLE SSYEOG..HANGUL SYLLABLE SSYEOH",
text! "C3BD..C3D7    ; LVT # Lo  [27] HANGUL SYLLABLE SSYEG..HANGUL SYLLABLE SSYEH",
text! "C3D9..C3F3    ; LVT # Lo  [27] HANGUL SYLLABLE SSOG..HANGUL SYLLABLE SSOH",
text! "C3F5..C40F    ; LVT # Lo  [27] HANGUL SYLLABLE SSWAG..HANGUL SYLLABLE SSWAH",
text! "C411..C42B    ; LVT # Lo  [27] HANGUL SYLLABLE SSWAEG..HANGUL SYLLABLE SSWAEH",
text! "C42D..C447    ; LVT # Lo  [27] HANGUL SYLLABLE SSOEG..HANGUL SYLLABLE SSOEH",
text! "C449..C463    ; LVT # Lo  [27] HANGUL SYLLABLE SSYOG..HANGUL SYLLABLE SSYOH",
text! "C465..C47F    ; LVT # Lo  [27] HANGUL SYLLABLE SSUG..HANGUL SYLLABLE SSUH",
text! "C481..C49B    ; LVT # Lo  [27] HANGUL SYLLABLE SSWEOG..HANGUL SYLLABLE SSWEOH",
text! "C49D..C4B7    ; LVT # Lo  [27] HANGUL SYLLABLE SSWEG..HANGUL SYLLABLE SSWEH",
text! "C4B9..C4D3    ; LVT # Lo  [27] HANGUL SYLLABLE SSWIG..HANGUL SYLLABLE SSWIH",
text! "C4D5..C4EF    ; LVT # Lo  [27] HANGUL SYLLABLE SSYUG..HANGUL SYLLABLE SSYUH",
text! "C4F1..C50B    ; LVT # Lo  [27] HANGUL SYLLABLE SSEUG..HANGUL SYLLABLE SSEUH",
text! "C50D..C527    ; LVT # Lo  [27] HANGUL SYLLABLE SSYIG..HANGUL SYLLABLE SSYIH",
text! "C529..C543    ; LVT # Lo  [27] HANGUL SYLLABLE SSIG..HANGUL SYLLABLE SSIH",
text! "C545..C55F    ; LVT # Lo  [27] HANGUL SYLLABLE AG..HANGUL SYLLABLE AH",
text! "C561..C57B    ; LVT # Lo  [27] HANGUL SYLLABLE AEG..HANGUL SYLLABLE AEH",
text! "C57D..C597    ; LVT # Lo  [27] HANGUL SYLLABLE YAG..HANGUL SYLLABLE YAH",
text! "C599..C5B3    ; LVT # Lo  [27] HANGUL SYLLABLE YAEG..HANGUL SYLLABLE YAEH",
text! "C5B5..C5CF    ; LVT # Lo  [27] HANGUL SYLLABLE EOG..HANGUL SYLLABLE EOH",
text! "C5D1..C5EB    ; LVT # Lo  [27] HANGUL SYLLABLE EG..HANGUL SYLLABLE EH",
text! "C5ED..C607    ; LVT # Lo  [27] HANGUL SYLLABLE YEOG..HANGUL SYLLABLE YEOH",
text! "C609..C623    ; LVT # Lo  [27] HANGUL SYLLABLE YEG..HANGUL SYLLABLE YEH",
text! "C625..C63F    ; LVT # Lo  [27] HANGUL SYLLABLE OG..HANGUL SYLLABLE OH"]

/-- lines 1345-1408 -/
def breakProperty21 : List Nat := [
text! "C641..C65B    ; LVT # Lo  [27] HANGUL SYLLABLE WAG..HANGUL SYLLABLE WAH",
text! "C65D..C677    ; LVT # Lo  [27] HANGUL SYLLABLE WAEG..HANGUL SYLLABLE WAEH",
text! "C679..C693    ; LVT # Lo  [27] HANGUL SYLLABLE OEG..HANGUL SYLLABLE OEH",
text! "C695..C6AF    ; LVT # Lo  [27] HANGUL SYLLABLE YOG..HANGUL SYLLABLE YOH",
text! "C6B1..C6CB    ; LVT # Lo  [27] HANGUL SYLLABLE UG..HANGUL SYLLABLE UH",
text! "C6CD..C6E7    ; LVT # Lo  [27] HANGUL SYLLABLE WEOG..HANGUL SYLLABLE WEOH",
text! "C6E9..C703    ; LVT # Lo  [27] HANGUL SYLLABLE WEG..HANGUL SYLLABLE WEH",
text! "C705..C71F    ; LVT # Lo  [27] HANGUL SYLLABLE WIG..HANGUL SYLLABLE WIH",
text! "C721..C73B    ; LVT # Lo  [27] HANGUL SYLLABLE YUG..HANGUL SYLLABLE YUH",
text! "C73D..C757    ; LVT # Lo  [27] HANGUL SYLLABLE EUG..HANGUL SYLLABLE EUH",
text! "C759..C773    ; LVT # Lo  [27] HANGUL SYLLABLE YIG..HANGUL SYLLABLE YIH",
text! "C775..C78F    ; LVT # Lo  [27] HANGUL SYLLABLE IG..HANGUL SYLLABLE IH",
text! "C791..C7AB    ; LVT # Lo  [27] HANGUL SYLLABLE JAG..HANGUL SYLLABLE JAH",
text! "C7AD..C7C7    ; LVT # Lo  [27] HANGUL SYLLABLE JAEG..HANGUL SYLLABLE JAEH",
text! "C7C9..C7E3    ; LVT # Lo  [27] HANGUL SYLLABLE JYAG..HANGUL SYLLABLE JYAH",
text! "C7E5..C7FF    ; LVT # Lo  [27] HANGUL SYLLABLE JYAEG..HANGUL SYLLABLE JYAEH",
text! "C801..C81B    ; LVT # Lo  [27] HANGUL SYLLABLE JEOG..HANGUL SYLLABLE JEOH",
text! "C81D..C837    ; LVT # Lo  [27] HANGUL SYLLABLE JEG..HANGUL SYLLABLE JEH",
text! "C839..C853    ; LVT # Lo  [27] HANGUL SYLLABLE JYEOG..HANGUL SYLLABLE JYEOH",
text! "C855..C86F    ; LVT # Lo  [27] HANGUL SYLLABLE JYEG..HANGUL SYLLABLE JYEH",
text! "C871..C88B    ; LVT # Lo  [27] HANGUL SYLLABLE JOG..HANGUL SYLLABLE JOH",
text! "C88D..C8A7    ; LVT # Lo  [27] HANGUL SYLLABLE JWAG..HANGUL SYLLABLE JWAH",
text! "C8A9..C8C3    ; LVT # Lo  [27] HANGUL SYLLABLE JWAEG..HANGUL SYLLABLE JWAEH",
text! "C8C5..C8DF    ; LVT # Lo  [27] HANGUL SYLLABLE JOEG..HANGUL SYLLABLE JOEH",
text! "C8E1..C8FB    ; LVT # Lo  [27] HANGUL SYLLABLE JYOG..HANGUL SYLLABLE JYOH",
text! "C8FD..C917    ; LVT # Lo  [27] HANGUL SYLLABLE JUG..HANGUL SYLLABLE JUH",
text! "C919..C933    ; LVT # Lo  [27] HANGUL SYLLABLE JWEOG..HANGUL SYLLABLE JWEOH",
text! "C935..C94F    ; LVT # Lo  [27] HANGUL SYLLABLE JWEG..HANGUL SYLLABLE JWEH",
text! "C951..C96B    ; LVT # Lo  [27] HANGUL SYLLABLE JWIG..HANGUL SYLLABLE JWIH",
text! "C96D..C987    ; LVT # Lo  [27] HANGUL SYLLABLE JYUG..HANGUL SYLLABLE JYUH",
text! "C989..C9A3    ; LVT # Lo  [27] HANGUL SYLLABLE JEUG..HANGUL SYLLABLE JEUH",
text! "C9A5..C9BF    ; LVT # Lo  [27] HANGUL SYLLABLE JYIG..HANGUL SYLLABLE JYIH",
text! "C9C1..C9DB    ; LVT # Lo  [27] HANGUL SYLLABLE JIG..HANGUL SYLLABLE JIH",
text! "C9DD..C9F7    ; LVT # Lo  [27] HANGUL SYLLABLE JJAG..HANGUL SYLLABLE JJAH",
text! "C9F9..CA13    ; LVT # Lo  [27] HANGUL SYLLABLE JJAEG..HANGUL SYLLABLE JJAEH",
text! "CA15..CA2F    ; LVT # Lo  [27] HANGUL SYLLABLE JJYAG..HANGUL SYLLABLE JJYAH",
text! "CA31..CA4B    ; LVT # Lo  [27] HANGUL SYLLABLE JJYAEG..HANGUL SYLLABLE JJYAEH",
text! "CA4D..CA67    ; LVT # Lo  [27] HANGUL SYLLABLE JJEOG..HANGUL SYLLABLE JJEOH",
text! "CA69..CA83    ; LVT # Lo  [27] HANGUL SYLLABLE JJEG..HANGUL SYLLABLE JJEH",
text! "CA85..CA9F    ; LVT # Lo  [27] HANGUL SYLLABLE JJYEOG..HANGUL SYLLABLE JJYEOH",
text! "CAA1..CABB    ; LVT # Lo  [27] HANGUL SYLLABLE JJYEG..HANGUL SYLLABLE JJYEH",
text! "CABD..CAD7    ; LVT # Lo  [27] HANGUL SYLLABLE JJOG..HANGUL SYLLABLE JJOH",
text! "CAD9..CAF3    ; LVT # Lo  [27] HANGUL SYLLABLE JJWAG..HANGUL SYLLABLE JJWAH",
text! "CAF5..CB0F    ; LVT # Lo  [27] HANGUL SYLLABLE JJWAEG..HANGUL SYLLABLE JJWAEH",
text! "CB11..CB2B    ; LVT # Lo  [27] HANGUL SYLLABLE JJOEG..HANGUL SYLLABLE JJOEH",
text! "CB2D..CB47    ; LVT # Lo  [27] HANGUL SYLLABLE JJYOG..HANGUL SYLLABLE JJYOH",
text! "CB49..CB63    ; LVT # Lo  [27] HANGUL SYLLABLE JJUG..HANGUL SYLLABLE JJUH",
text! "CB65..CB7F    ; LVT # Lo  [27] HANGUL SYLLABLE JJWEOG..HANGUL SYLLABLE JJWEOH",
text! "CB81..CB9B    ; LVT # Lo  [27] HANGUL SYLLABLE JJWEG..HANGUL SYLLABLE JJWEH",
text! "CB9D..CBB7    ; LVT # Lo  [27] HANGUL SYLLABLE JJWIG..HANGUL SYLLABLE JJWIH",
text! "CBB9..CBD3    ; LVT # Lo  [27] HANGUL SYLLABLE JJYUG..HANGUL SYLLABLE JJYUH",
text! "CBD5..CBEF    ; LVT # Lo  [27] HANGUL SYLLABLE JJEUG..HANGUL SYLLABLE JJEUH",
text! "CBF1..CC0B    ; LVT # Lo  [27] HANGUL SYLLABLE JJYIG..HANGUL SYLLABLE JJYIH",
text! "CC0D..CC27    ; LVT # Lo  [27] HANGUL SYLLABLE JJIG..HANGUL SYLLABLE JJIH",
text! "CC29..CC43    ; LVT # Lo  [27] HANGUL SYLLABLE CAG..HANGUL SYLLABLE CAH",
text! "CC45..CC5F    ; LVT # Lo  [27] HANGUL SYLLABLE CAEG..HANGUL SYLLABLE CAEH",
text! "CC61..CC7B    ; LVT # Lo  [27] HANGUL SYLLABLE CYAG..HANGUL SYLLABLE CYAH",
text! "CC7D..CC97    ; LVT # Lo  [27] HANGUL SYLLABLE CYAEG..HANGUL SYLLABLE CYAEH",
text! "CC99..CCB3    ; LVT # Lo  [27] HANGUL SYLLABLE CEOG..HANGUL SYLLABLE CEOH",
text! "CCB5..CCCF    ; LVT # Lo  [27] HANGUL SYLLABLE CEG..HANGUL SYLLABLE CEH",
text! "CCD1..CCEB    ; LVT # Lo  [27] HANGUL SYLLABLE CYEOG..HANGUL SYLLABLE CYEOH",
text! "CCED..CD07    ; LVT # Lo  [27] HANGUL SYLLABLE CYEG..HANGUL SYLLABLE CYEH",
text! "CD09..CD23    ; LVT # Lo  [27] HANGUL SYLLABLE COG..HANGUL SYLLABLE COH",
text! "CD25..CD3F    ; LVT # Lo  [27] HANGUL SYLLABLE CWAG..HANGUL SYLLABLE CWAH"]

/-- lines 1409-1472 -/
def breakProperty22 : List Nat := [
text! "CD41..CD5B    ; LVT # Lo  [27] HANGUL SYLLABLE CWAEG..HANGUL SYLLABLE CWAEH",
text! "CD5D..CD77    ; LVT # Lo  [27] HANGUL SYLLABLE COEG..HANGUL SYLLABLE COEH",
text! "CD79..CD93    ; LVT # Lo  [27] HANGUL SYLLABLE CYOG..HANGUL SYLLABLE CYOH",
text! "CD95..CDAF    ; LVT # Lo  [27] HANGUL SYLLABLE CUG..HANGUL SYLLABLE CUH",
text! "CDB1..CDCB    ; LVT # Lo  [27] HANGUL SYLLABLE CWEOG..HANGUL SYLLABLE CWEOH",
text! "CDCD..CDE7    ; LVT # Lo  [27] HANGUL SYLLABLE CWEG..HANGUL SYLLABLE CWEH",
text! "CDE9..CE03    ; LVT # Lo  [27] HANGUL SYLLABLE CWIG..HANGUL SYLLABLE CWIH",
text! "CE05..CE1F    ; LVT # Lo  [27] HANGUL SYLLABLE CYUG..HANGUL SYLLABLE CYUH",
text! "CE21..CE3B    ; LVT # Lo  [27] HANGUL SYLLABLE CEUG..HANGUL SYLLABLE CEUH",
text! "CE3D..CE57    ; LVT # Lo  [27] HANGUL SYLLABLE CYIG..HANGUL SYLLABLE CYIH",
text! "CE59..CE73    ; LVT # Lo  [27] HANGUL SYLLABLE CIG..HANGUL SYLLABLE CIH",
text! "CE75..CE8F    ; LVT # Lo  [27] HANGUL SYLLABLE KAG..HANGUL SYLLABLE KAH",
text! "CE91..CEAB    ; LVT # Lo  [27] HANGUL SYLLABLE KAEG..HANGUL SYLLABLE KAEH",
text! "CEAD..CEC7    ; LVT # Lo  [27] HANGUL SYLLABLE KYAG..HANGUL SYLLABLE KYAH",
text! "CEC9..CEE3    ; LVT # Lo  [27] HANGUL SYLLABLE KYAEG..HANGUL SYLLABLE KYAEH",
text! "CEE5..CEFF    ; LVT # Lo  [27] HANGUL SYLLABLE KEOG..HANGUL SYLLABLE KEOH",
text! "CF01..CF1B    ; LVT # Lo  [27] HANGUL SYLLABLE KEG..HANGUL SYLLABLE KEH",
text! "CF1D..CF37    ; LVT # Lo  [27] HANGUL SYLLABLE KYEOG..HANGUL SYLLABLE KYEOH",
text! "CF39..CF53    ; LVT # Lo  [27] HANGUL SYLLABLE KYEG..HANGUL SYLLABLE KYEH",
text! "CF55..CF6F    ; LVT # Lo  [27] HANGUL SYLLABLE KOG..HANGUL SYLLABLE KOH",
text! "CF71..CF8B    ; LVT # Lo  [27] HANGUL SYLLABLE KWAG..HANGUL SYLLABLE KWAH",
text! "CF8D..CFA7    ; LVT # Lo  [27] HANGUL SYLLABLE KWAEG..HANGUL SYLLABLE KWAEH",
text! "CFA9..CFC3    ; LVT # Lo  [27] HANGUL SYLLABLE KOEG..HANGUL SYLLABLE KOEH",
text! "CFC5..CFDF    ; LVT # Lo  [27] HANGUL SYLLABLE KYOG..HANGUL SYLLABLE KYOH",
text! "CFE1..CFFB    ; LVT # Lo  [27] HANGUL SYLLABLE KUG..HANGUL SYLLABLE KUH",
text! "CFFD..D017    ; LVT # Lo  [27] HANGUL SYLLABLE KWEOG..HANGUL SYLLABLE KWEOH",
text! "D019..D033    ; LVT # Lo  [27] HANGUL SYLLABLE KWEG..HANGUL SYLLABLE KWEH",
text! "D035..D04F    ; LVT # Lo  [27] HANGUL SYLLABLE KWIG..HANGUL SYLLABLE KWIH",
text! "D051..D06B    ; LVT # Lo  [27] HANGUL SYLLABLE KYUG..HANGUL SYLLABLE KYUH",
text! "D06D..D087    ; LVT # Lo  [27] HANGUL SYLLABLE KEUG..HANGUL SYLLABLE KEUH",
text! "D089..D0A3    ; LVT # Lo  [27] HANGUL SYLLABLE KYIG..HANGUL SYLLABLE KYIH",
text! "D0A5..D0BF    ; LVT # Lo  [27] HANGUL SYLLABLE KIG..HANGUL SYLLABLE KIH",
text! "D0C1..D0DB    ; LVT # Lo  [27] HANGUL SYLLABLE TAG..HANGUL SYLLABLE TAH",
text! "D0DD..D0F7    ; LVT # Lo  [27] HANGUL SYLLABLE TAEG..HANGUL SYLLABLE TAEH",
text! "D0F9..D113    ; LVT # Lo  [27] HANGUL SYLLABLE TYAG..HANGUL SYLLABLE TYAH",
text! "D115..D12F    ; LVT # Lo  [27] HANGUL SYLLABLE TYAEG..HANGUL SYLLABLE TYAEH",
text! "D131..D14B    ; LVT # Lo  [27] HANGUL SYLLABLE TEOG..HANGUL SYLLABLE TEOH",
text! "D14D..D167    ; LVT # Lo  [27] HANGUL SYLLABLE TEG..HANGUL SYLLABLE TEH",
text! "D169..D183    ; LVT # Lo  [27] HANGUL SYLLABLE TYEOG..HANGUL SYLLABLE TYEOH",
text! "D185..D19F    ; LVT # Lo  [27] HANGUL SYLLABLE TYEG..HANGUL SYLLABLE TYEH",
text! "D1A1..D1BB    ; LVT # Lo  [27] HANGUL SYLLABLE TOG..HANGUL SYLLABLE TOH",
text! "D1BD..D1D7    ; LVT # Lo  [27] HANGUL SYLLABLE TWAG..HANGUL SYLLABLE TWAH",
text! "D1D9..D1F3    ; LVT # Lo  [27] HANGUL SYLLABLE TWAEG..HANGUL SYLLABLE TWAEH",
text! "D1F5..D20F    ; LVT # Lo  [27] HANGUL SYLLABLE TOEG..HANGUL SYLLABLE TOEH",
text! "D211..D22B    ; LVT # Lo  [27] HANGUL SYLLABLE TYOG..HANGUL SYLLABLE TYOH",
text! "D22D..D247    ; LVT # Lo  [27] HANGUL SYLLABLE TUG..HANGUL SYLLABLE TUH",
text! "D249..D263    ; LVT # Lo  [27] HANGUL SYLLABLE TWEOG..HANGUL SYLLABLE TWEOH",
text! "D265..D27F    ; LVT # Lo  [27] HANGUL SYLLABLE TWEG..HANGUL SYLLABLE TWEH",
text! "D281..D29B    ; LVT # Lo  [27] HANGUL SYLLABLE TWIG..HANGUL SYLLABLE TWIH",
text! "D29D..D2B7    ; LVT # Lo  [27] HANGUL SYLLABLE TYUG..HANGUL SYLLABLE TYUH",
text! "D2B9..D2D3    ; LVT # Lo  [27] HANGUL SYLLABLE TEUG..HANGUL SYLLABLE TEUH",
text! "D2D5..D2EF    ; LVT # Lo  [27] HANGUL SYLLABLE TYIG..HANGUL SYLLABLE TYIH",
text! "D2F1..D30B    ; LVT # Lo  [27] HANGUL SYLLABLE TIG..HANGUL SYLLABLE TIH",
text! "D30D..D327    ; LVT # Lo  [27] HANGUL SYLLABLE PAG..HANGUL SYLLABLE PAH",
text! "D329..D343    ; LVT # Lo  [27] HANGUL SYLLABLE PAEG..HANGUL SYLLABLE PAEH",
text! "D345..D35F    ; LVT # Lo  [27] HANGUL SYLLABLE PYAG..HANGUL SYLLABLE PYAH",
text! "D361..D37B    ; LVT # Lo  [27] HANGUL SYLLABLE PYAEG..HANGUL SYLLABLE PYAEH",
text! "D37D..D397    ; LVT # Lo  [27] HANGUL SYLLABLE PEOG..HANGUL SYLLABLE PEOH",
text! "D399..D3B3    ; LVT # Lo  [27] HANGUL SYLLABLE PEG..HANGUL SYLLABLE PEH",
text! "D3B5..D3CF    ; LVT # Lo  [27] HANGUL SYLLABLE PYEOG..HANGUL SYLLABLE PYEOH",
text! "D3D1..D3EB    ; LVT # Lo  [27] HANGUL SYLLABLE PYEG..HANGUL SYLLABLE PYEH",
text! "D3ED..D407    ; LVT # Lo  [27] HANGUL SYLLABLE POG..HANGUL SYLLABLE POH",
text! "D409..D423    ; LVT # Lo  [27] HANGUL SYLLABLE PWAG..HANGUL SYLLABLE PWAH",
text! "D425..D43F    ; LVT # Lo  [27] HANGUL SYLLABLE PWAEG..HANGUL SYLLABLE PWAEH"]

/-- lines 1473-1513 -/
def breakProperty23 : List Nat := [
text! "D441..D45B    ; LVT # Lo  [27] HANGUL SYLLABLE POEG..HANGUL SYLLABLE POEH",
text! "D45D..D477    ; LVT # Lo  [27] HANGUL SYLLABLE PYOG..HANGUL SYLLABLE PYOH",
text! "D479..D493    ; LVT # Lo  [27] HANGUL SYLLABLE PUG..HANGUL SYLLABLE PUH",
text! "D495..D4AF    ; LVT # Lo  [27] HANGUL SYLLABLE PWEOG..HANGUL SYLLABLE PWEOH",
text! "D4B1..D4CB    ; LVT # Lo  [27] HANGUL SYLLABLE PWEG..HANGUL SYLLABLE PWEH",
text! "D4CD..D4E7    ; LVT # Lo  [27] HANGUL SYLLABLE PWIG..HANGUL SYLLABLE PWIH",
text! "D4E9..D503    ; LVT # Lo  [27] HANGUL SYLLABLE PYUG..HANGUL SYLLABLE PYUH",
text! "D505..D51F    ; LVT # Lo  [27] HANGUL SYLLABLE PEUG..HANGUL SYLLABLE PEUH",
text! "D521..D53B    ; LVT # Lo  [27] HANGUL SYLLABLE PYIG..HANGUL SYLLABLE PYIH",
text! "D53D..D557    ; LVT # Lo  [27] HANGUL SYLLABLE PIG..HANGUL SYLLABLE PIH",
text! "D559..D573    ; LVT # Lo  [27] HANGUL SYLLABLE HAG..HANGUL SYLLABLE HAH",
text! "D575..D58F    ; LVT # Lo  [27] HANGUL SYLLABLE HAEG..HANGUL SYLLABLE HAEH",
text! "D591..D5AB    ; LVT # Lo  [27] HANGUL SYLLABLE HYAG..HANGUL SYLLABLE HYAH",
text! "D5AD..D5C7    ; LVT # Lo  [27] HANGUL SYLLABLE HYAEG..HANGUL SYLLABLE HYAEH",
text! "D5C9..D5E3    ; LVT # Lo  [27] HANGUL SYLLABLE HEOG..HANGUL SYLLABLE HEOH",
text! "D5E5..D5FF    ; LVT # Lo  [27] HANGUL SYLLABLE HEG..HANGUL SYLLABLE HEH",
text! "D601..D61B    ; LVT # Lo  [27] HANGUL SYLLABLE HYEOG..HANGUL SYLLABLE HYEOH",
text! "D61D..D637    ; LVT # Lo  [27] HANGUL SYLLABLE HYEG..HANGUL SYLLABLE HYEH",
text! "D639..D653    ; LVT # Lo  [27] HANGUL SYLLABLE HOG..HANGUL SYLLABLE HOH",
text! "D655..D66F    ; LVT # Lo  [27] HANGUL SYLLABLE HWAG..HANGUL SYLLABLE HWAH",
text! "D671..D68B    ; LVT # Lo  [27] HANGUL SYLLABLE HWAEG..HANGUL SYLLABLE HWAEH",
text! "D68D..D6A7    ; LVT # Lo  [27] HANGUL SYLLABLE HOEG..HANGUL SYLLABLE HOEH",
text! "D6A9..D6C3    ; LVT # Lo  [27] HANGUL SYLLABLE HYOG..HANGUL SYLLABLE HYOH",
text! "D6C5..D6DF    ; LVT # Lo  [27] HANGUL SYLLABLE HUG..HANGUL SYLLABLE HUH",
text! "D6E1..D6FB    ; LVT # Lo  [27] HANGUL SYLLABLE HWEOG..HANGUL SYLLABLE HWEOH",
text! "D6FD..D717    ; LVT # Lo  [27] HANGUL SYLLABLE HWEG..HANGUL SYLLABLE HWEH",
text! "D719..D733    ; LVT # Lo  [27] HANGUL SYLLABLE HWIG..HANGUL SYLLABLE HWIH",
text! "D735..D74F    ; LVT # Lo  [27] HANGUL SYLLABLE HYUG..HANGUL SYLLABLE HYUH",
text! "D751..D76B    ; LVT # Lo  [27] HANGUL SYLLABLE HEUG..HANGUL SYLLABLE HEUH",
text! "D76D..D787    ; LVT # Lo  [27] HANGUL SYLLABLE HYIG..HANGUL SYLLABLE HYIH",
text! "D789..D7A3    ; LVT # Lo  [27] HANGUL SYLLABLE HIG..HANGUL SYLLABLE HIH",
text! "",
text! "# Total code points: 10773",
text! "",
text! "# ================================================",
text! "",
text! "200D          ; ZWJ # Cf       ZERO WIDTH JOINER",
text! "",
text! "# Total code points: 1",
text! "",
text! "# EOF"]

/-- The lines of the file, in parts of 64 lines. -/
def breakProperty : List (List Nat) := [breakProperty0, breakProperty1, breakProperty2, breakProperty3, breakProperty4, breakProperty5, breakProperty6, breakProperty7, breakProperty8, breakProperty9, breakProperty10, breakProperty11, breakProperty12, breakProperty13, breakProperty14, breakProperty15, breakProperty16, breakProperty17, breakProperty18, breakProperty19, breakProperty20, breakProperty21, breakProperty22, breakProperty23]

end Textseg.Text
