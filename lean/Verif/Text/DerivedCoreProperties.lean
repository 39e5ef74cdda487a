import Verif.Model.Text
/-!
# The text of textseg/internal/charprops/ucd/DerivedCoreProperties.txt

Generated by tools/gen_text.py.
-/

namespace Textseg.Text

/-- lines 1-64 -/
def derivedCore0 : List Nat := [
text! "# DerivedCoreProperties-17.0.0.txt",
text! "# Date: 2025-07-30, 23:55:08 GMT",
text! "# © 2025 Unicode®, Inc.",
text! "# Unicode and the Unicode Logo are registered trademarks of Unicode, Inc. in the U.S. and other countries.",
text! "# For terms of use and license, see https://www.unicode.org/terms_of_use.html",
text! "#",
text! "# Unicode Character Database",
text! "#   For documentation, see https://www.unicode.org/reports/tr44/",
text! "",
text! "# ================================================",
text! "",
text! "# Derived Property: Math",
text! "#  Generated from: Sm + Other_Math",
text! "",
text! "002B          ; Math # Sm       PLUS SIGN",
text! "003C..003E    ; Math # Sm   [3] LESS-THAN SIGN..GREATER-THAN SIGN",
text! "005E          ; Math # Sk       CIRCUMFLEX ACCENT",
text! "007C          ; Math # Sm       VERTICAL LINE",
text! "007E          ; Math # Sm       TILDE",
text! "00AC          ; Math # Sm       NOT SIGN",
text! "00B1          ; Math # Sm       PLUS-MINUS SIGN",
text! "00D7          ; Math # Sm       MULTIPLICATION SIGN",
text! "00F7          ; Math # Sm       DIVISION SIGN",
text! "03D0..03D2    ; Math # L&   [3] GREEK BETA SYMBOL..GREEK UPSILON WITH HOOK SYMBOL",
text! "03D5          ; Math # L&       GREEK PHI SYMBOL",
text! "03F0..03F1    ; Math # L&   [2] GREEK KAPPA SYMBOL..GREEK RHO SYMBOL",
text! "03F4..03F5    ; Math # L&   [2] GREEK CAPITAL THETA SYMBOL..GREEK LUNATE EPSILON SYMBOL",
text! "03F6          ; Math # Sm       GREEK REVERSED LUNATE EPSILON SYMBOL",
text! "0606..0608    ; Math # Sm   [3] ARABIC-INDIC CUBE ROOT..ARABIC RAY",
text! "2016          ; Math # Po       DOUBLE VERTICAL LINE",
text! "2032..2034    ; Math # Po   [3] PRIME..TRIPLE PRIME",
text! "2040          ; Math # Pc       CHARACTER TIE",
text! "2044          ; Math # Sm       FRACTION SLASH",
text! "2052          ; Math # Sm       COMMERCIAL MINUS SIGN",
text! "2061..2064    ; Math # Cf   [4] FUNCTION APPLICATION..INVISIBLE PLUS",
text! "207A..207C    ; Math # Sm   [3] SUPERSCRIPT PLUS SIGN..SUPERSCRIPT EQUALS SIGN",
text! "207D          ; Math # Ps       SUPERSCRIPT LEFT PARENTHESIS",
text! "207E          ; Math # Pe       SUPERSCRIPT RIGHT PARENTHESIS",
text! "208A..208C    ; Math # Sm   [3] SUBSCRIPT PLUS SIGN..SUBSCRIPT EQUALS SIGN",
text! "208D          ; Math # Ps       SUBSCRIPT LEFT PARENTHESIS",
text! "208E          ; Math # Pe       SUBSCRIPT RIGHT PARENTHESIS",
text! "20D0..20DC    ; Math # Mn  [13] COMBINING LEFT HARPOON ABOVE..COMBINING FOUR DOTS ABOVE",
text! "20E1          ; Math # Mn       COMBINING LEFT RIGHT ARROW ABOVE",
text! "20E5..20E6    ; Math # Mn   [2] COMBINING REVERSE SOLIDUS OVERLAY..COMBINING DOUBLE VERTICAL STROKE OVERLAY",
text! "20EB..20EF    ; Math # Mn   [5] COMBINING LONG DOUBLE SOLIDUS OVERLAY..COMBINING RIGHT ARROW BELOW",
text! "2102          ; Math # L&       DOUBLE-STRUCK CAPITAL C",
text! "2107          ; Math # L&       EULER CONSTANT",
text! "210A..2113    ; Math # L&  [10] SCRIPT SMALL G..SCRIPT SMALL L",
text! "2115          ; Math # L&       DOUBLE-STRUCK CAPITAL N",
text! "2118          ; Math # Sm       SCRIPT CAPITAL P",
text! "2119..211D    ; Math # L&   [5] DOUBLE-STRUCK CAPITAL P..DOUBLE-STRUCK CAPITAL R",
text! "2124          ; Math # L&       DOUBLE-STRUCK CAPITAL Z",
text! "2128          ; Math # L&       BLACK-LETTER CAPITAL Z",
text! "2129          ; Math # So       TURNED GREEK SMALL LETTER IOTA",
text! "212C..212D    ; Math # L&   [2] SCRIPT CAPITAL B..BLACK-LETTER CAPITAL C",
text! "212F..2131    ; Math # L&   [3] SCRIPT SMALL E..SCRIPT CAPITAL F",
text! "2133..2134    ; Math # L&   [2] SCRIPT CAPITAL M..SCRIPT SMALL O",
text! "2135..2138    ; Math # Lo   [4] ALEF SYMBOL..DALET SYMBOL",
text! "213C..213F    ; Math # L&   [4] DOUBLE-STRUCK SMALL PI..DOUBLE-STRUCK CAPITAL PI",
text! "2140..2144    ; Math # Sm   [5] DOUBLE-STRUCK N-ARY SUMMATION..TURNED SANS-SERIF CAPITAL Y",
text! "2145..2149    ; Math # L&   [5] DOUBLE-STRUCK ITALIC CAPITAL D..DOUBLE-STRUCK ITALIC SMALL J",
text! "214B          ; Math # Sm       TURNED AMPERSAND",
text! "2190..2194    ; Math # Sm   [5] LEFTWARDS ARROW..LEFT RIGHT ARROW",
text! "2195..2199    ; Math # So   [5] UP DOWN ARROW..SOUTH WEST ARROW"]

/-- lines 65-128 -/
def derivedCore1 : List Nat := [
text! "219A..219B    ; Math # Sm   [2] LEFTWARDS ARROW WITH STROKE..RIGHTWARDS ARROW WITH STROKE",
text! "219C..219F    ; Math # So   [4] LEFTWARDS WAVE ARROW..UPWARDS TWO HEADED ARROW",
text! "21A0          ; Math # Sm       RIGHTWARDS TWO HEADED ARROW",
text! "21A1..21A2    ; Math # So   [2] DOWNWARDS TWO HEADED ARROW..LEFTWARDS ARROW WITH TAIL",
text! "21A3          ; Math # Sm       RIGHTWARDS ARROW WITH TAIL",
text! "21A4..21A5    ; Math # So   [2] LEFTWARDS ARROW FROM BAR..UPWARDS ARROW FROM BAR",
text! "21A6          ; Math # Sm       RIGHTWARDS ARROW FROM BAR",
text! "21A7          ; Math # So       DOWNWARDS ARROW FROM BAR",
text! "21A9..21AD    ; Math # So   [5] LEFTWARDS ARROW WITH HOOK..LEFT RIGHT WAVE ARROW",
text! "21AE          ; Math # Sm       LEFT RIGHT ARROW WITH STROKE",
text! "21B0..21B1    ; Math # So   [2] UPWARDS ARROW WITH TIP LEFTWARDS..UPWARDS ARROW WITH TIP RIGHTWARDS",
text! "21B6..21B7    ; Math # So   [2] ANTICLOCKWISE TOP SEMICIRCLE ARROW..CLOCKWISE TOP SEMICIRCLE ARROW",
text! "21BC..21CD    ; Math # So  [18] LEFTWARDS HARPOON WITH BARB UPWARDS..LEFTWARDS DOUBLE ARROW WITH STROKE",
text! "21CE..21CF    ; Math # Sm   [2] LEFT RIGHT DOUBLE ARROW WITH STROKE..RIGHTWARDS DOUBLE ARROW WITH STROKE",
text! "21D0..21D1    ; Math # So   [2] LEFTWARDS DOUBLE ARROW..UPWARDS DOUBLE ARROW",
text! "21D2          ; Math # Sm       RIGHTWARDS DOUBLE ARROW",
text! "21D3          ; Math # So       DOWNWARDS DOUBLE ARROW",
text! "21D4          ; Math # Sm       LEFT RIGHT DOUBLE ARROW",
text! "21D5..21DB    ; Math # So   [7] UP DOWN DOUBLE ARROW..RIGHTWARDS TRIPLE ARROW",
text! "21DD          ; Math # So       RIGHTWARDS SQUIGGLE ARROW",
text! "21E4..21E5    ; Math # So   [2] LEFTWARDS ARROW TO BAR..RIGHTWARDS ARROW TO BAR",
text! "21F4..22FF    ; Math # Sm [268] RIGHT ARROW WITH SMALL CIRCLE..Z NOTATION BAG MEMBERSHIP",
text! "2308          ; Math # Ps       LEFT CEILING",
text! "2309          ; Math # Pe       RIGHT CEILING",
text! "230A          ; Math # Ps       LEFT FLOOR",
text! "230B          ; Math # Pe       RIGHT FLOOR",
text! "2320..2321    ; Math # Sm   [2] TOP HALF INTEGRAL..BOTTOM HALF INTEGRAL",
text! "237C          ; Math # Sm       RIGHT ANGLE WITH DOWNWARDS ZIGZAG ARROW",
text! "239B..23B3    ; Math # Sm  [25] LEFT PARENTHESIS UPPER HOOK..SUMMATION BOTTOM",
text! "23B4..23B5    ; Math # So   [2] TOP SQUARE BRACKET..BOTTOM SQUARE BRACKET",
text! "23B7          ; Math # So       RADICAL SYMBOL BOTTOM",
text! "23D0          ; Math # So       VERTICAL LINE EXTENSION",
text! "23DC..23E1    ; Math # Sm   [6] TOP PARENTHESIS..BOTTOM TORTOISE SHELL BRACKET",
text! "23E2          ; Math # So       WHITE TRAPEZIUM",
text! "25A0..25A1    ; Math # So   [2] BLACK SQUARE..WHITE SQUARE",
text! "25AE..25B6    ; Math # So   [9] BLACK VERTICAL RECTANGLE..BLACK RIGHT-POINTING TRIANGLE",
text! "25B7          ; Math # Sm       WHITE RIGHT-POINTING TRIANGLE",
text! "25BC..25C0    ; Math # So   [5] BLACK DOWN-POINTING TRIANGLE..BLACK LEFT-POINTING TRIANGLE",
text! "25C1          ; Math # Sm       WHITE LEFT-POINTING TRIANGLE",
text! "25C6..25C7    ; Math # So   [2] BLACK DIAMOND..WHITE DIAMOND",
text! "25CA..25CB    ; Math # So   [2] LOZENGE..WHITE CIRCLE",
text! "25CF..25D3    ; Math # So   [5] BLACK CIRCLE..CIRCLE WITH UPPER HALF BLACK",
text! "25E2          ; Math # So       BLACK LOWER RIGHT TRIANGLE",
text! "25E4          ; Math # So       BLACK UPPER LEFT TRIANGLE",
text! "25E7..25EC    ; Math # So   [6] SQUARE WITH LEFT HALF BLACK..WHITE UP-POINTING TRIANGLE WITH DOT",
text! "25F8..25FF    ; Math # Sm   [8] UPPER LEFT TRIANGLE..LOWER RIGHT TRIANGLE",
text! "2605..2606    ; Math # So   [2] BLACK STAR..WHITE STAR",
text! "2640          ; Math # So       FEMALE SIGN",
text! "2642          ; Math # So       MALE SIGN",
text! "2660..2663    ; Math # So   [4] BLACK SPADE SUIT..BLACK CLUB SUIT",
text! "266D..266E    ; Math # So   [2] MUSIC FLAT SIGN..MUSIC NATURAL SIGN",
text! "266F          ; Math # Sm       MUSIC SHARP SIGN",
text! "27C0..27C4    ; Math # Sm   [5] THREE DIMENSIONAL ANGLE..OPEN SUPERSET",
text! "27C5          ; Math # Ps       LEFT S-SHAPED BAG DELIMITER",
text! "27C6          ; Math # Pe       RIGHT S-SHAPED BAG DELIMITER",
text! "27C7..27E5    ; Math # Sm  [31] OR WITH DOT INSIDE..WHITE SQUARE WITH RIGHTWARDS TICK",
text! "27E6          ; Math # Ps       MATHEMATICAL LEFT WHITE SQUARE BRACKET",
text! "27E7          ; Math # Pe       MATHEMATICAL RIGHT WHITE SQUARE BRACKET",
text! "27E8          ; Math # Ps       MATHEMATICAL LEFT ANGLE BRACKET",
text! "27E9          ; Math # Pe       MATHEMATICAL RIGHT ANGLE BRACKET",
text! "27EA          ; Math # Ps       MATHEMATICAL LEFT DOUBLE ANGLE BRACKET",
text! "27EB          ; Math # Pe       MATHEMATICAL RIGHT DOUBLE ANGLE BRACKET",
text! "27EC          ; Math # Ps       MATHEMATICAL LEFT WHITE TORTOISE SHELL BRACKET",
text! "27ED          ; Math # Pe       MATHEMATICAL RIGHT WHITE TORTOISE SHELL BRACKET"]

/-- lines 129-192 -/
def derivedCore2 : List Nat := [
text! "27EE          ; Math # Ps       MATHEMATICAL LEFT FLATTENED PARENTHESIS",
text! "27EF          ; Math # Pe       MATHEMATICAL RIGHT FLATTENED PARENTHESIS",
text! "27F0..27FF    ; Math # Sm  [16] UPWARDS QUADRUPLE ARROW..LONG RIGHTWARDS SQUIGGLE ARROW",
text! "2900..2982    ; Math # Sm [131] RIGHTWARDS TWO-HEADED ARROW WITH VERTICAL STROKE..Z NOTATION TYPE COLON",
text! "2983          ; Math # Ps       LEFT WHITE CURLY BRACKET",
text! "2984          ; Math # Pe       RIGHT WHITE CURLY BRACKET",
text! "2985          ; Math # Ps       LEFT WHITE PARENTHESIS",
text! "2986          ; Math # Pe       RIGHT WHITE PARENTHESIS",
text! "2987          ; Math # Ps       Z NOTATION LEFT IMAGE BRACKET",
text! "2988          ; Math # Pe       Z NOTATION RIGHT IMAGE BRACKET",
text! "2989          ; Math # Ps       Z NOTATION LEFT BINDING BRACKET",
text! "298A          ; Math # Pe       Z NOTATION RIGHT BINDING BRACKET",
text! "298B          ; Math # Ps       LEFT SQUARE BRACKET WITH UNDERBAR",
text! "298C          ; Math # Pe       RIGHT SQUARE BRACKET WITH UNDERBAR",
text! "298D          ; Math # Ps       LEFT SQUARE BRACKET WITH TICK IN TOP CORNER",
text! "298E          ; Math # Pe       RIGHT SQUARE BRACKET WITH TICK IN BOTTOM CORNER",
text! "298F          ; Math # Ps       LEFT SQUARE BRACKET WITH TICK IN BOTTOM CORNER",
text! "2990          ; Math # Pe       RIGHT SQUARE BRACKET WITH TICK IN TOP CORNER",
text! "2991          ; Math # Ps       LEFT ANGLE BRACKET WITH DOT",
text! "2992          ; Math # Pe       RIGHT ANGLE BRACKET WITH DOT",
text! "2993          ; Math # Ps       LEFT ARC LESS-THAN BRACKET",
text! "2994          ; Math # Pe       RIGHT ARC GREATER-THAN BRACKET",
text! "2995          ; Math # Ps       DOUBLE LEFT ARC GREATER-THAN BRACKET",
text! "2996          ; Math # Pe       DOUBLE RIGHT ARC LESS-THAN BRACKET",
text! "2997          ; Math # Ps       LEFT BLACK TORTOISE SHELL BRACKET",
text! "2998          ; Math # Pe       RIGHT BLACK TORTOISE SHELL BRACKET",
text! "2999..29D7    ; Math # Sm  [63] DOTTED FENCE..BLACK HOURGLASS",
text! "29D8          ; Math # Ps       LEFT WIGGLY FENCE",
text! "29D9          ; Math # Pe       RIGHT WIGGLY FENCE",
text! "29DA          ; Math # Ps       LEFT DOUBLE WIGGLY FENCE",
text! "29DB          ; Math # Pe       RIGHT DOUBLE WIGGLY FENCE",
text! "29DC..29FB    ; Math # Sm  [32] INCOMPLETE INFINITY..TRIPLE PLUS",
text! "29FC          ; Math # Ps       LEFT-POINTING CURVED ANGLE BRACKET",
text! "29FD          ; Math # Pe       RIGHT-POINTING CURVED ANGLE BRACKET",
text! "29FE..2AFF    ; Math # Sm [258] TINY..N-ARY WHITE VERTICAL BAR",
text! "2B30..2B44    ; Math # Sm  [21] LEFT ARROW WITH SMALL CIRCLE..RIGHTWARDS ARROW THROUGH SUPERSET",
text! "2B47..2B4C    ; Math # Sm   [6] REVERSE TILDE OPERATOR ABOVE RIGHTWARDS ARROW..RIGHTWARDS ARROW ABOVE REVERSE TILDE OPERATOR",
text! "FB29          ; Math # Sm       HEBREW LETTER ALTERNATIVE PLUS SIGN",
text! "FE61          ; Math # Po       SMALL ASTERISK",
text! "FE62          ; Math # Sm       SMALL PLUS SIGN",
text! "FE63          ; Math # Pd       SMALL HYPHEN-MINUS",
text! "FE64..FE66    ; Math # Sm   [3] SMALL LESS-THAN SIGN..SMALL EQUALS SIGN",
text! "FE68          ; Math # Po       SMALL REVERSE SOLIDUS",
text! "FF0B          ; Math # Sm       FULLWIDTH PLUS SIGN",
text! "FF1C..FF1E    ; Math # Sm   [3] FULLWIDTH LESS-THAN SIGN..FULLWIDTH GREATER-THAN SIGN",
text! "FF3C          ; Math # Po       FULLWIDTH REVERSE SOLIDUS",
text! "FF3E          ; Math # Sk       FULLWIDTH CIRCUMFLEX ACCENT",
text! "FF5C          ; Math # Sm       FULLWIDTH VERTICAL LINE",
text! "FF5E          ; Math # Sm       FULLWIDTH TILDE",
text! "FFE2          ; Math # Sm       FULLWIDTH NOT SIGN",
text! "FFE9..FFEC    ; Math # Sm   [4] HALFWIDTH LEFTWARDS ARROW..HALFWIDTH DOWNWARDS ARROW",
text! "10D8E..10D8F  ; Math # Sm   [2] GARAY PLUS SIGN..GARAY MINUS SIGN",
text! "1CEF0         ; Math # Sm       MEDIUM SMALL WHITE CIRCLE WITH HORIZONTAL BAR",
text! "1D400..1D454  ; Math # L&  [85] MATHEMATICAL BOLD CAPITAL A..MATHEMATICAL ITALIC SMALL G",
text! "1D456..1D49C  ; Math # L&  [71] MATHEMATICAL ITALIC SMALL I..MATHEMATICAL SCRIPT CAPITAL A",
text! "1D49E..1D49F  ; Math # L&   [2] MATHEMATICAL SCRIPT CAPITAL C..MATHEMATICAL SCRIPT CAPITAL D",
text! "1D4A2         ; Math # L&       MATHEMATICAL SCRIPT CAPITAL G",
text! "1D4A5..1D4A6  ; Math # L&   [2] MATHEMATICAL SCRIPT CAPITAL J..MATHEMATICAL SCRIPT CAPITAL K",
text! "1D4A9..1D4AC  ; Math # L&   [4] MATHEMATICAL SCRIPT CAPITAL N..MATHEMATICAL SCRIPT CAPITAL Q",
text! "1D4AE..1D4B9  ; Math # L&  [12] MATHEMATICAL SCRIPT CAPITAL S..MATHEMATICAL SCRIPT SMALL D",
text! "1D4BB         ; Math # L&       MATHEMATICAL SCRIPT SMALL F",
text! "1D4BD..1D4C3  ; Math # L&   [7] MATHEMATICAL SCRIPT SMALL H..MATHEMATICAL SCRIPT SMALL N",
text! "1D4C5..1D505  ; Math # L&  [65] MATHEMATICAL SCRIPT SMALL P..MATHEMATICAL FRAKTUR CAPITAL B",
text! "1D507..1D50A  ; Math # L&   [4] MATHEMATICAL FRAKTUR CAPITAL D..MATHEMATICAL FRAKTUR CAPITAL G"]

/-- lines 193-256 -/
def derivedCore3 : List Nat := [
text! "1D50D..1D514  ; Math # L&   [8] MATHEMATICAL FRAKTUR CAPITAL J..MATHEMATICAL FRAKTUR CAPITAL Q",
text! "1D516..1D51C  ; Math # L&   [7] MATHEMATICAL FRAKTUR CAPITAL S..MATHEMATICAL FRAKTUR CAPITAL Y",
text! "1D51E..1D539  ; Math # L&  [28] MATHEMATICAL FRAKTUR SMALL A..MATHEMATICAL DOUBLE-STRUCK CAPITAL B",
text! "1D53B..1D53E  ; Math # L&   [4] MATHEMATICAL DOUBLE-STRUCK CAPITAL D..MATHEMATICAL DOUBLE-STRUCK CAPITAL G",
text! "1D540..1D544  ; Math # L&   [5] MATHEMATICAL DOUBLE-STRUCK CAPITAL I..MATHEMATICAL DOUBLE-STRUCK CAPITAL M",
text! "1D546         ; Math # L&       MATHEMATICAL DOUBLE-STRUCK CAPITAL O",
text! "1D54A..1D550  ; Math # L&   [7] MATHEMATICAL DOUBLE-STRUCK CAPITAL S..MATHEMATICAL DOUBLE-STRUCK CAPITAL Y",
text! "1D552..1D6A5  ; Math # L& [340] MATHEMATICAL DOUBLE-STRUCK SMALL A..MATHEMATICAL ITALIC SMALL DOTLESS J",
text! "1D6A8..1D6C0  ; Math # L&  [25] MATHEMATICAL BOLD CAPITAL ALPHA..MATHEMATICAL BOLD CAPITAL OMEGA",
text! "1D6C1         ; Math # Sm       MATHEMATICAL BOLD NABLA",
text! "1D6C2..1D6DA  ; Math # L&  [25] MATHEMATICAL BOLD SMALL ALPHA..MATHEMATICAL BOLD SMALL OMEGA",
text! "1D6DB         ; Math # Sm       MATHEMATICAL BOLD PARTIAL DIFFERENTIAL",
text! "1D6DC..1D6FA  ; Math # L&  [31] MATHEMATICAL BOLD EPSILON SYMBOL..MATHEMATICAL ITALIC CAPITAL OMEGA",
text! "1D6FB         ; Math # Sm       MATHEMATICAL ITALIC NABLA",
text! "1D6FC..1D714  ; Math # L&  [25] MATHEMATICAL ITALIC SMALL ALPHA..MATHEMATICAL ITALIC SMALL OMEGA",
text! "1D715         ; Math # Sm       MATHEMATICAL ITALIC PARTIAL DIFFERENTIAL",
text! "1D716..1D734  ; Math # L&  [31] MATHEMATICAL ITALIC EPSILON SYMBOL..MATHEMATICAL BOLD ITALIC CAPITAL OMEGA",
text! "1D735         ; Math # Sm       MATHEMATICAL BOLD ITALIC NABLA",
text! "1D736..1D74E  ; Math # L&  [25] MATHEMATICAL BOLD ITALIC SMALL ALPHA..MATHEMATICAL BOLD ITALIC SMALL OMEGA",
text! "1D74F         ; Math # Sm       MATHEMATICAL BOLD ITALIC PARTIAL DIFFERENTIAL",
text! "1D750..1D76E  ; Math # L&  [31] MATHEMATICAL BOLD ITALIC EPSILON SYMBOL..MATHEMATICAL SANS-SERIF BOLD CAPITAL OMEGA",
text! "1D76F         ; Math # Sm       MATHEMATICAL SANS-SERIF BOLD NABLA",
text! "1D770..1D788  ; Math # L&  [25] MATHEMATICAL SANS-SERIF BOLD SMALL ALPHA..MATHEMATICAL SANS-SERIF BOLD SMALL OMEGA",
text! "1D789         ; Math # Sm       MATHEMATICAL SANS-SERIF BOLD PARTIAL DIFFERENTIAL",
text! "1D78A..1D7A8  ; Math # L&  [31] MATHEMATICAL SANS-SERIF BOLD EPSILON SYMBOL..MATHEMATICAL SANS-SERIF BOLD ITALIC CAPITAL OMEGA",
text! "1D7A9         ; Math # Sm       MATHEMATICAL SANS-SERIF BOLD ITALIC NABLA",
text! "1D7AA..1D7C2  ; Math # L&  [25] MATHEMATICAL SANS-SERIF BOLD ITALIC SMALL ALPHA..MATHEMATICAL SANS-SERIF BOLD ITALIC SMALL OMEGA",
text! "1D7C3         ; Math # Sm       MATHEMATICAL SANS-SERIF BOLD ITALIC PARTIAL DIFFERENTIAL",
text! "1D7C4..1D7CB  ; Math # L&   [8] MATHEMATICAL SANS-SERIF BOLD ITALIC EPSILON SYMBOL..MATHEMATICAL BOLD SMALL DIGAMMA",
text! "1D7CE..1D7FF  ; Math # Nd  [50] MATHEMATICAL BOLD DIGIT ZERO..MATHEMATICAL MONOSPACE DIGIT NINE",
text! "1EE00..1EE03  ; Math # Lo   [4] ARABIC MATHEMATICAL ALEF..ARABIC MATHEMATICAL DAL",
text! "1EE05..1EE1F  ; Math # Lo  [27] ARABIC MATHEMATICAL WAW..ARABIC MATHEMATICAL DOTLESS QAF",
text! "1EE21..1EE22  ; Math # Lo   [2] ARABIC MATHEMATICAL INITIAL BEH..ARABIC MATHEMATICAL INITIAL JEEM",
text! "1EE24         ; Math # Lo       ARABIC MATHEMATICAL INITIAL HEH",
text! "1EE27         ; Math # Lo       ARABIC MATHEMATICAL INITIAL HAH",
text! "1EE29..1EE32  ; Math # Lo  [10] ARABIC MATHEMATICAL INITIAL YEH..ARABIC MATHEMATICAL INITIAL QAF",
text! "1EE34..1EE37  ; Math # Lo   [4] ARABIC MATHEMATICAL INITIAL SHEEN..ARABIC MATHEMATICAL INITIAL KHAH",
text! "1EE39         ; Math # Lo       ARABIC MATHEMATICAL INITIAL DAD",
text! "1EE3B         ; Math # Lo       ARABIC MATHEMATICAL INITIAL GHAIN",
text! "1EE42         ; Math # Lo       ARABIC MATHEMATICAL TAILED JEEM",
text! "1EE47         ; Math # Lo       ARABIC MATHEMATICAL TAILED HAH",
text! "1EE49         ; Math # Lo       ARABIC MATHEMATICAL TAILED YEH",
text! "1EE4B         ; Math # Lo       ARABIC MATHEMATICAL TAILED LAM",
text! "1EE4D..1EE4F  ; Math # Lo   [3] ARABIC MATHEMATICAL TAILED NOON..ARABIC MATHEMATICAL TAILED AIN",
text! "1EE51..1EE52  ; Math # Lo   [2] ARABIC MATHEMATICAL TAILED SAD..ARABIC MATHEMATICAL TAILED QAF",
text! "1EE54         ; Math # Lo       ARABIC MATHEMATICAL TAILED SHEEN",
text! "1EE57         ; Math # Lo       ARABIC MATHEMATICAL TAILED KHAH",
text! "1EE59         ; Math # Lo       ARABIC MATHEMATICAL TAILED DAD",
text! "1EE5B         ; Math # Lo       ARABIC MATHEMATICAL TAILED GHAIN",
text! "1EE5D         ; Math # Lo       ARABIC MATHEMATICAL TAILED DOTLESS NOON",
text! "1EE5F         ; Math # Lo       ARABIC MATHEMATICAL TAILED DOTLESS QAF",
text! "1EE61..1EE62  ; Math # Lo   [2] ARABIC MATHEMATICAL STRETCHED BEH..ARABIC MATHEMATICAL STRETCHED JEEM",
text! "1EE64         ; Math # Lo       ARABIC MATHEMATICAL STRETCHED HEH",
text! "1EE67..1EE6A  ; Math # Lo   [4] ARABIC MATHEMATICAL STRETCHED HAH..ARABIC MATHEMATICAL STRETCHED KAF",
text! "1EE6C..1EE72  ; Math # Lo   [7] ARABIC MATHEMATICAL STRETCHED MEEM..ARABIC MATHEMATICAL STRETCHED QAF",
text! "1EE74..1EE77  ; Math # Lo   [4] ARABIC MATHEMATICAL STRETCHED SHEEN..ARABIC MATHEMATICAL STRETCHED KHAH",
text! "1EE79..1EE7C  ; Math # Lo   [4] ARABIC MATHEMATICAL STRETCHED DAD..ARABIC MATHEMATICAL STRETCHED DOTLESS BEH",
text! "1EE7E         ; Math # Lo       ARABIC MATHEMATICAL STRETCHED DOTLESS FEH",
text! "1EE80..1EE89  ; Math # Lo  [10] ARABIC MATHEMATICAL LOOPED ALEF..ARABIC MATHEMATICAL LOOPED YEH",
text! "1EE8B..1EE9B  ; Math # Lo  [17] ARABIC MATHEMATICAL LOOPED LAM..ARABIC MATHEMATICAL LOOPED GHAIN",
text! "1EEA1..1EEA3  ; Math # Lo   [3] ARABIC MATHEMATICAL DOUBLE-STRUCK BEH..ARABIC MATHEMATICAL DOUBLE-STRUCK DAL",
text! "1EEA5..1EEA9  ; Math # Lo   [5] ARABIC MATHEMATICAL DOUBLE-STRUCK WAW..ARABIC MATHEMATICAL DOUBLE-STRUCK YEH",
text! "1EEAB..1EEBB  ; Math # Lo  [17] ARABIC MATHEMATICAL DOUBLE-STRUCK LAM..ARABIC MATHEMATICAL DOUBLE-STRUCK GHAIN",
text! "1EEF0..1EEF1  ; Math # Sm   [2] ARABIC MATHEMATICAL OPERATOR MEEM WITH HAH WITH TATWEEL..ARABIC MATHEMATICAL OPERATOR HAH WITH DAL"]

/-- lines 257-320 -/
def derivedCore4 : List Nat := [
text! "1F8D0..1F8D8  ; Math # Sm   [9] LONG RIGHTWARDS ARROW OVER LONG LEFTWARDS ARROW..LONG LEFT RIGHT ARROW WITH DEPENDENT LOBE",
text! "",
text! "# Total code points: 2322",
text! "",
text! "# ================================================",
text! "",
text! "# Derived Property: Alphabetic",
text! "#  Generated from: Uppercase + Lowercase + Lt + Lm + Lo + Nl + Other_Alphabetic",
text! "",
text! "0041..005A    ; Alphabetic # L&  [26] LATIN CAPITAL LETTER A..LATIN CAPITAL LETTER Z",
text! "0061..007A    ; Alphabetic # L&  [26] LATIN SMALL LETTER A..LATIN SMALL LETTER Z",
text! "00AA          ; Alphabetic # Lo       FEMININE ORDINAL INDICATOR",
text! "00B5          ; Alphabetic # L&       MICRO SIGN",
text! "00BA          ; Alphabetic # Lo       MASCULINE ORDINAL INDICATOR",
text! "00C0..00D6    ; Alphabetic # L&  [23] LATIN CAPITAL LETTER A WITH GRAVE..LATIN CAPITAL LETTER O WITH DIAERESIS",
text! "00D8..00F6    ; Alphabetic # L&  [31] LATIN CAPITAL LETTER O WITH STROKE..LATIN SMALL LETTER O WITH DIAERESIS",
text! "00F8..01BA    ; Alphabetic # L& [195] LATIN SMALL LETTER O WITH STROKE..LATIN SMALL LETTER EZH WITH TAIL",
text! "01BB          ; Alphabetic # Lo       LATIN LETTER TWO WITH STROKE",
text! "01BC..01BF    ; Alphabetic # L&   [4] LATIN CAPITAL LETTER TONE FIVE..LATIN LETTER WYNN",
text! "01C0..01C3    ; Alphabetic # Lo   [4] LATIN LETTER DENTAL CLICK..LATIN LETTER RETROFLEX CLICK",
text! "01C4..0293    ; Alphabetic # L& [208] LATIN CAPITAL LETTER DZ WITH CARON..LATIN SMALL LETTER EZH WITH CURL",
text! "0294..0295    ; Alphabetic # Lo   [2] LATIN LETTER GLOTTAL STOP..LATIN LETTER PHARYNGEAL VOICED FRICATIVE",
text! "0296..02AF    ; Alphabetic # L&  [26] LATIN LETTER INVERTED GLOTTAL STOP..LATIN SMALL LETTER TURNED H WITH FISHHOOK AND TAIL",
text! "02B0..02C1    ; Alphabetic # Lm  [18] MODIFIER LETTER SMALL H..MODIFIER LETTER REVERSED GLOTTAL STOP",
text! "02C6..02D1    ; Alphabetic # Lm  [12] MODIFIER LETTER CIRCUMFLEX ACCENT..MODIFIER LETTER HALF TRIANGULAR COLON",
text! "02E0..02E4    ; Alphabetic # Lm   [5] MODIFIER LETTER SMALL GAMMA..MODIFIER LETTER SMALL REVERSED GLOTTAL STOP",
text! "02EC          ; Alphabetic # Lm       MODIFIER LETTER VOICING",
text! "02EE          ; Alphabetic # Lm       MODIFIER LETTER DOUBLE APOSTROPHE",
text! "0345          ; Alphabetic # Mn       COMBINING GREEK YPOGEGRAMMENI",
text! "0363..036F    ; Alphabetic # Mn  [13] COMBINING LATIN SMALL LETTER A..COMBINING LATIN SMALL LETTER X",
text! "0370..0373    ; Alphabetic # L&   [4] GREEK CAPITAL LETTER HETA..GREEK SMALL LETTER ARCHAIC SAMPI",
text! "0374          ; Alphabetic # Lm       GREEK NUMERAL SIGN",
text! "0376..0377    ; Alphabetic # L&   [2] GREEK CAPITAL LETTER PAMPHYLIAN DIGAMMA..GREEK SMALL LETTER PAMPHYLIAN DIGAMMA",
text! "037A          ; Alphabetic # Lm       GREEK YPOGEGRAMMENI",
text! "037B..037D    ; Alphabetic # L&   [3] GREEK SMALL REVERSED LUNATE SIGMA SYMBOL..GREEK SMALL REVERSED DOTTED LUNATE SIGMA SYMBOL",
text! "037F          ; Alphabetic # L&       GREEK CAPITAL LETTER YOT",
text! "0386          ; Alphabetic # L&       GREEK CAPITAL LETTER ALPHA WITH TONOS",
text! "0388..038A    ; Alphabetic # L&   [3] GREEK CAPITAL LETTER EPSILON WITH TONOS..GREEK CAPITAL LETTER IOTA WITH TONOS",
text! "038C          ; Alphabetic # L&       GREEK CAPITAL LETTER OMICRON WITH TONOS",
text! "038E..03A1    ; Alphabetic # L&  [20] GREEK CAPITAL LETTER UPSILON WITH TONOS..GREEK CAPITAL LETTER RHO",
text! "03A3..03F5    ; Alphabetic # L&  [83] GREEK CAPITAL LETTER SIGMA..GREEK LUNATE EPSILON SYMBOL",
text! "03F7..0481    ; Alphabetic # L& [139] GREEK CAPITAL LETTER SHO..CYRILLIC SMALL LETTER KOPPA",
text! "048A..052F    ; Alphabetic # L& [166] CYRILLIC CAPITAL LETTER SHORT I WITH TAIL..CYRILLIC SMALL LETTER EL WITH DESCENDER",
text! "0531..0556    ; Alphabetic # L&  [38] ARMENIAN CAPITAL LETTER AYB..ARMENIAN CAPITAL LETTER FEH",
text! "0559          ; Alphabetic # Lm       ARMENIAN MODIFIER LETTER LEFT HALF RING",
text! "0560..0588    ; Alphabetic # L&  [41] ARMENIAN SMALL LETTER TURNED AYB..ARMENIAN SMALL LETTER YI WITH STROKE",
text! "05B0..05BD    ; Alphabetic # Mn  [14] HEBREW POINT SHEVA..HEBREW POINT METEG",
text! "05BF          ; Alphabetic # Mn       HEBREW POINT RAFE",
text! "05C1..05C2    ; Alphabetic # Mn   [2] HEBREW POINT SHIN DOT..HEBREW POINT SIN DOT",
text! "05C4..05C5    ; Alphabetic # Mn   [2] HEBREW MARK UPPER DOT..HEBREW MARK LOWER DOT",
text! "05C7          ; Alphabetic # Mn       HEBREW POINT QAMATS QATAN",
text! "05D0..05EA    ; Alphabetic # Lo  [27] HEBREW LETTER ALEF..HEBREW LETTER TAV",
text! "05EF..05F2    ; Alphabetic # Lo   [4] HEBREW YOD TRIANGLE..HEBREW LIGATURE YIDDISH DOUBLE YOD",
text! "0610..061A    ; Alphabetic # Mn  [11] ARABIC SIGN SALLALLAHOU ALAYHE WASSALLAM..ARABIC SMALL KASRA",
text! "0620..063F    ; Alphabetic # Lo  [32] ARABIC LETTER KASHMIRI YEH..ARABIC LETTER FARSI YEH WITH THREE DOTS ABOVE",
text! "0640          ; Alphabetic # Lm       ARABIC TATWEEL",
text! "0641..064A    ; Alphabetic # Lo  [10] ARABIC LETTER FEH..ARABIC LETTER YEH",
text! "064B..0657    ; Alphabetic # Mn  [13] ARABIC FATHATAN..ARABIC INVERTED DAMMA",
text! "0659..065F    ; Alphabetic # Mn   [7] ARABIC ZWARAKAY..ARABIC WAVY HAMZA BELOW",
text! "066E..066F    ; Alphabetic # Lo   [2] ARABIC LETTER DOTLESS BEH..ARABIC LETTER DOTLESS QAF",
text! "0670          ; Alphabetic # Mn       ARABIC LETTER SUPERSCRIPT ALEF",
text! "0671..06D3    ; Alphabetic # Lo  [99] ARABIC LETTER ALEF WASLA..ARABIC LETTER YEH BARREE WITH HAMZA ABOVE",
text! "06D5          ; Alphabetic # Lo       ARABIC LETTER AE",
text! "06D6..06DC    ; Alphabetic # Mn   [7] ARABIC SMALL HIGH LIGATURE SAD WITH LAM WITH ALEF MAKSURA..ARABIC SMALL HIGH SEEN"]

/-- lines 321-384 -/
def derivedCore5 : List Nat := [
text! "06E1..06E4    ; Alphabetic # Mn   [4] ARABIC SMALL HIGH DOTLESS HEAD OF KHAH..ARABIC SMALL HIGH MADDA",
text! "06E5..06E6    ; Alphabetic # Lm   [2] ARABIC SMALL WAW..ARABIC SMALL YEH",
text! "06E7..06E8    ; Alphabetic # Mn   [2] ARABIC SMALL HIGH YEH..ARABIC SMALL HIGH NOON",
text! "06ED          ; Alphabetic # Mn       ARABIC SMALL LOW MEEM",
text! "06EE..06EF    ; Alphabetic # Lo   [2] ARABIC LETTER DAL WITH INVERTED V..ARABIC LETTER REH WITH INVERTED V",
text! "06FA..06FC    ; Alphabetic # Lo   [3] ARABIC LETTER SHEEN WITH DOT BELOW..ARABIC LETTER GHAIN WITH DOT BELOW",
text! "06FF          ; Alphabetic # Lo       ARABIC LETTER HEH WITH INVERTED V",
text! "0710          ; Alphabetic # Lo       SYRIAC LETTER ALAPH",
text! "0711          ; Alphabetic # Mn       SYRIAC LETTER SUPERSCRIPT ALAPH",
text! "0712..072F    ; Alphabetic # Lo  [30] SYRIAC LETTER BETH..SYRIAC LETTER PERSIAN DHALATH",
text! "0730..073F    ; Alphabetic # Mn  [16] SYRIAC PTHAHA ABOVE..SYRIAC RWAHA",
text! "074D..07A5    ; Alphabetic # Lo  [89] SYRIAC LETTER SOGDIAN ZHAIN..THAANA LETTER WAAVU",
text! "07A6..07B0    ; Alphabetic # Mn  [11] THAANA ABAFILI..THAANA SUKUN",
text! "07B1          ; Alphabetic # Lo       THAANA LETTER NAA",
text! "07CA..07EA    ; Alphabetic # Lo  [33] NKO LETTER A..NKO LETTER JONA RA",
text! "07F4..07F5    ; Alphabetic # Lm   [2] NKO HIGH TONE APOSTROPHE..NKO LOW TONE APOSTROPHE",
text! "07FA          ; Alphabetic # Lm       NKO LAJANYALAN",
text! "0800..0815    ; Alphabetic # Lo  [22] SAMARITAN LETTER ALAF..SAMARITAN LETTER TAAF",
text! "0816..0817    ; Alphabetic # Mn   [2] SAMARITAN MARK IN..SAMARITAN MARK IN-ALAF",
text! "081A          ; Alphabetic # Lm       SAMARITAN MODIFIER LETTER EPENTHETIC YUT",
text! "081B..0823    ; Alphabetic # Mn   [9] SAMARITAN MARK EPENTHETIC YUT..SAMARITAN VOWEL SIGN A",
text! "0824          ; Alphabetic # Lm       SAMARITAN MODIFIER LETTER SHORT A",
text! "0825..0827    ; Alphabetic # Mn   [3] SAMARITAN VOWEL SIGN SHORT A..SAMARITAN VOWEL SIGN U",
text! "0828          ; Alphabetic # Lm       SAMARITAN MODIFIER LETTER I",
text! "0829..082C    ; Alphabetic # Mn   [4] SAMARITAN VOWEL SIGN LONG I..SAMARITAN VOWEL SIGN SUKUN",
text! "0840..0858    ; Alphabetic # Lo  [25] MANDAIC LETTER HALQA..MANDAIC LETTER AIN",
text! "0860..086A    ; Alphabetic # Lo  [11] SYRIAC LETTER MALAYALAM NGA..SYRIAC LETTER MALAYALAM SSA",
text! "0870..0887    ; Alphabetic # Lo  [24] ARABIC LETTER ALEF WITH ATTACHED FATHA..ARABIC BASELINE ROUND DOT",
text! "0889..088F    ; Alphabetic # Lo   [7] ARABIC LETTER NOON WITH INVERTED SMALL V..ARABIC LETTER NOON WITH RING ABOVE",
text! "0897          ; Alphabetic # Mn       ARABIC PEPET",
text! "08A0..08C8    ; Alphabetic # Lo  [41] ARABIC LETTER BEH WITH SMALL V BELOW..ARABIC LETTER GRAF",
text! "08C9          ; Alphabetic # Lm       ARABIC SMALL FARSI YEH",
text! "08D4..08DF    ; Alphabetic # Mn  [12] ARABIC SMALL HIGH WORD AR-RUB..ARABIC SMALL HIGH WORD WAQFA",
text! "08E3..08E9    ; Alphabetic # Mn   [7] ARABIC TURNED DAMMA BELOW..ARABIC CURLY KASRATAN",
text! "08F0..0902    ; Alphabetic # Mn  [19] ARABIC OPEN FATHATAN..DEVANAGARI SIGN ANUSVARA",
text! "0903          ; Alphabetic # Mc       DEVANAGARI SIGN VISARGA",
text! "0904..0939    ; Alphabetic # Lo  [54] DEVANAGARI LETTER SHORT A..DEVANAGARI LETTER HA",
text! "093A          ; Alphabetic # Mn       DEVANAGARI VOWEL SIGN OE",
text! "093B          ; Alphabetic # Mc       DEVANAGARI VOWEL SIGN OOE",
text! "093D          ; Alphabetic # Lo       DEVANAGARI SIGN AVAGRAHA",
text! "093E..0940    ; Alphabetic # Mc   [3] DEVANAGARI VOWEL SIGN AA..DEVANAGARI VOWEL SIGN II",
text! "0941..0948    ; Alphabetic # Mn   [8] DEVANAGARI VOWEL SIGN U..DEVANAGARI VOWEL SIGN AI",
text! "0949..094C    ; Alphabetic # Mc   [4] DEVANAGARI VOWEL SIGN CANDRA O..DEVANAGARI VOWEL SIGN AU",
text! "094E..094F    ; Alphabetic # Mc   [2] DEVANAGARI VOWEL SIGN PRISHTHAMATRA E..DEVANAGARI VOWEL SIGN AW",
text! "0950          ; Alphabetic # Lo       DEVANAGARI OM",
text! "0955..0957    ; Alphabetic # Mn   [3] DEVANAGARI VOWEL SIGN CANDRA LONG E..DEVANAGARI VOWEL SIGN UUE",
text! "0958..0961    ; Alphabetic # Lo  [10] DEVANAGARI LETTER QA..DEVANAGARI LETTER VOCALIC LL",
text! "0962..0963    ; Alphabetic # Mn   [2] DEVANAGARI VOWEL SIGN VOCALIC L..DEVANAGARI VOWEL SIGN VOCALIC LL",
text! "0971          ; Alphabetic # Lm       DEVANAGARI SIGN HIGH SPACING DOT",
text! "0972..0980    ; Alphabetic # Lo  [15] DEVANAGARI LETTER CANDRA A..BENGALI ANJI",
text! "0981          ; Alphabetic # Mn       BENGALI SIGN CANDRABINDU",
text! "0982..0983    ; Alphabetic # Mc   [2] BENGALI SIGN ANUSVARA..BENGALI SIGN VISARGA",
text! "0985..098C    ; Alphabetic # Lo   [8] BENGALI LETTER A..BENGALI LETTER VOCALIC L",
text! "098F..0990    ; Alphabetic # Lo   [2] BENGALI LETTER E..BENGALI LETTER AI",
text! "0993..09A8    ; Alphabetic # Lo  [22] BENGALI LETTER O..BENGALI LETTER NA",
text! "09AA..09B0    ; Alphabetic # Lo   [7] BENGALI LETTER PA..BENGALI LETTER RA",
text! "09B2          ; Alphabetic # Lo       BENGALI LETTER LA",
text! "09B6..09B9    ; Alphabetic # Lo   [4] BENGALI LETTER SHA..BENGALI LETTER HA",
text! "09BD          ; Alphabetic # Lo       BENGALI SIGN AVAGRAHA",
text! "09BE..09C0    ; Alphabetic # Mc   [3] BENGALI VOWEL SIGN AA..BENGALI VOWEL SIGN II",
text! "09C1..09C4    ; Alphabetic # Mn   [4] BENGALI VOWEL SIGN U..BENGALI VOWEL SIGN VOCALIC RR",
text! "09C7..09C8    ; Alphabetic # Mc   [2] BENGALI VOWEL SIGN E..BENGALI VOWEL SIGN AI",
text! "09CB..09CC    ; Alphabetic # Mc   [2] BENGALI VOWEL SIGN O..BENGALI VOWEL SIGN AU",
text! "09CE          ; Alphabetic # Lo       BENGALI LETTER KHANDA TA"]

/-- lines 385-448 -/
def derivedCore6 : List Nat := [
text! "09D7          ; Alphabetic # Mc       BENGALI AU LENGTH MARK",
text! "09DC..09DD    ; Alphabetic # Lo   [2] BENGALI LETTER RRA..BENGALI LETTER RHA",
text! "09DF..09E1    ; Alphabetic # Lo   [3] BENGALI LETTER YYA..BENGALI LETTER VOCALIC LL",
text! "09E2..09E3    ; Alphabetic # Mn   [2] BENGALI VOWEL SIGN VOCALIC L..BENGALI VOWEL SIGN VOCALIC LL",
text! "09F0..09F1    ; Alphabetic # Lo   [2] BENGALI LETTER RA WITH MIDDLE DIAGONAL..BENGALI LETTER RA WITH LOWER DIAGONAL",
text! "09FC          ; Alphabetic # Lo       BENGALI LETTER VEDIC ANUSVARA",
text! "0A01..0A02    ; Alphabetic # Mn   [2] GURMUKHI SIGN ADAK BINDI..GURMUKHI SIGN BINDI",
text! "0A03          ; Alphabetic # Mc       GURMUKHI SIGN VISARGA",
text! "0A05..0A0A    ; Alphabetic # Lo   [6] GURMUKHI LETTER A..GURMUKHI LETTER UU",
text! "0A0F..0A10    ; Alphabetic # Lo   [2] GURMUKHI LETTER EE..GURMUKHI LETTER AI",
text! "0A13..0A28    ; Alphabetic # Lo  [22] GURMUKHI LETTER OO..GURMUKHI LETTER NA",
text! "0A2A..0A30    ; Alphabetic # Lo   [7] GURMUKHI LETTER PA..GURMUKHI LETTER RA",
text! "0A32..0A33    ; Alphabetic # Lo   [2] GURMUKHI LETTER LA..GURMUKHI LETTER LLA",
text! "0A35..0A36    ; Alphabetic # Lo   [2] GURMUKHI LETTER VA..GURMUKHI LETTER SHA",
text! "0A38..0A39    ; Alphabetic # Lo   [2] GURMUKHI LETTER SA..GURMUKHI LETTER HA",
text! "0A3E..0A40    ; Alphabetic # Mc   [3] GURMUKHI VOWEL SIGN AA..GURMUKHI VOWEL SIGN II",
text! "0A41..0A42    ; Alphabetic # Mn   [2] GURMUKHI VOWEL SIGN U..GURMUKHI VOWEL SIGN UU",
text! "0A47..0A48    ; Alphabetic # Mn   [2] GURMUKHI VOWEL SIGN EE..GURMUKHI VOWEL SIGN AI",
text! "0A4B..0A4C    ; Alphabetic # Mn   [2] GURMUKHI VOWEL SIGN OO..GURMUKHI VOWEL SIGN AU",
text! "0A51          ; Alphabetic # Mn       GURMUKHI SIGN UDAAT",
text! "0A59..0A5C    ; Alphabetic # Lo   [4] GURMUKHI LETTER KHHA..GURMUKHI LETTER RRA",
text! "0A5E          ; Alphabetic # Lo       GURMUKHI LETTER FA",
text! "0A70..0A71    ; Alphabetic # Mn   [2] GURMUKHI TIPPI..GURMUKHI ADDAK",
text! "0A72..0A74    ; Alphabetic # Lo   [3] GURMUKHI IRI..GURMUKHI EK ONKAR",
text! "0A75          ; Alphabetic # Mn       GURMUKHI SIGN YAKASH",
text! "0A81..0A82    ; Alphabetic # Mn   [2] GUJARATI SIGN CANDRABINDU..GUJARATI SIGN ANUSVARA",
text! "0A83          ; Alphabetic # Mc       GUJARATI SIGN VISARGA",
text! "0A85..0A8D    ; Alphabetic # Lo   [9] GUJARATI LETTER A..GUJARATI VOWEL CANDRA E",
text! "0A8F..0A91    ; Alphabetic # Lo   [3] GUJARATI LETTER E..GUJARATI VOWEL CANDRA O",
text! "0A93..0AA8    ; Alphabetic # Lo  [22] GUJARATI LETTER O..GUJARATI LETTER NA",
text! "0AAA..0AB0    ; Alphabetic # Lo   [7] GUJARATI LETTER PA..GUJARATI LETTER RA",
text! "0AB2..0AB3    ; Alphabetic # Lo   [2] GUJARATI LETTER LA..GUJARATI LETTER LLA",
text! "0AB5..0AB9    ; Alphabetic # Lo   [5] GUJARATI LETTER VA..GUJARATI LETTER HA",
text! "0ABD          ; Alphabetic # Lo       GUJARATI SIGN AVAGRAHA",
text! "0ABE..0AC0    ; Alphabetic # Mc   [3] GUJARATI VOWEL SIGN AA..GUJARATI VOWEL SIGN II",
text! "0AC1..0AC5    ; Alphabetic # Mn   [5] GUJARATI VOWEL SIGN U..GUJARATI VOWEL SIGN CANDRA E",
text! "0AC7..0AC8    ; Alphabetic # Mn   [2] GUJARATI VOWEL SIGN E..GUJARATI VOWEL SIGN AI",
text! "0AC9          ; Alphabetic # Mc       GUJARATI VOWEL SIGN CANDRA O",
text! "0ACB..0ACC    ; Alphabetic # Mc   [2] GUJARATI VOWEL SIGN O..GUJARATI VOWEL SIGN AU",
text! "0AD0          ; Alphabetic # Lo       GUJARATI OM",
text! "0AE0..0AE1    ; Alphabetic # Lo   [2] GUJARATI LETTER VOCALIC RR..GUJARATI LETTER VOCALIC LL",
text! "0AE2..0AE3    ; Alphabetic # Mn   [2] GUJARATI VOWEL SIGN VOCALIC L..GUJARATI VOWEL SIGN VOCALIC LL",
text! "0AF9          ; Alphabetic # Lo       GUJARATI LETTER ZHA",
text! "0AFA..0AFC    ; Alphabetic # Mn   [3] GUJARATI SIGN SUKUN..GUJARATI SIGN MADDAH",
text! "0B01          ; Alphabetic # Mn       ORIYA SIGN CANDRABINDU",
text! "0B02..0B03    ; Alphabetic # Mc   [2] ORIYA SIGN ANUSVARA..ORIYA SIGN VISARGA",
text! "0B05..0B0C    ; Alphabetic # Lo   [8] ORIYA LETTER A..ORIYA LETTER VOCALIC L",
text! "0B0F..0B10    ; Alphabetic # Lo   [2] ORIYA LETTER E..ORIYA LETTER AI",
text! "0B13..0B28    ; Alphabetic # Lo  [22] ORIYA LETTER O..ORIYA LETTER NA",
text! "0B2A..0B30    ; Alphabetic # Lo   [7] ORIYA LETTER PA..ORIYA LETTER RA",
text! "0B32..0B33    ; Alphabetic # Lo   [2] ORIYA LETTER LA..ORIYA LETTER LLA",
text! "0B35..0B39    ; Alphabetic # Lo   [5] ORIYA LETTER VA..ORIYA LETTER HA",
text! "0B3D          ; Alphabetic # Lo       ORIYA SIGN AVAGRAHA",
text! "0B3E          ; Alphabetic # Mc       ORIYA VOWEL SIGN AA",
text! "0B3F          ; Alphabetic # Mn       ORIYA VOWEL SIGN I",
text! "0B40          ; Alphabetic # Mc       ORIYA VOWEL SIGN II",
text! "0B41..0B44    ; Alphabetic # Mn   [4] ORIYA VOWEL SIGN U..ORIYA VOWEL SIGN VOCALIC RR",
text! "0B47..0B48    ; Alphabetic # Mc   [2] ORIYA VOWEL SIGN E..ORIYA VOWEL SIGN AI",
text! "0B4B..0B4C    ; Alphabetic # Mc   [2] ORIYA VOWEL SIGN O..ORIYA VOWEL SIGN AU",
text! "0B56          ; Alphabetic # Mn       ORIYA AI LENGTH MARK",
text! "0B57          ; Alphabetic # Mc       ORIYA AU LENGTH MARK",
text! "0B5C..0B5D    ; Alphabetic # Lo   [2] ORIYA LETTER RRA..ORIYA LETTER RHA",
text! "0B5F..0B61    ; Alphabetic # Lo   [3] ORIYA LETTER YYA..ORIYA LETTER VOCALIC LL",
text! "0B62..0B63    ; Alphabetic # Mn   [2] ORIYA VOWEL SIGN VOCALIC L..ORIYA VOWEL SIGN VOCALIC LL"]

/-- lines 449-512 -/
def derivedCore7 : List Nat := [
text! "0B71          ; Alphabetic # Lo       ORIYA LETTER WA",
text! "0B82          ; Alphabetic # Mn       TAMIL SIGN ANUSVARA",
text! "0B83          ; Alphabetic # Lo       TAMIL SIGN VISARGA",
text! "0B85..0B8A    ; Alphabetic # Lo   [6] TAMIL LETTER A..TAMIL LETTER UU",
text! "0B8E..0B90    ; Alphabetic # Lo   [3] TAMIL LETTER E..TAMIL LETTER AI",
text! "0B92..0B95    ; Alphabetic # Lo   [4] TAMIL LETTER O..TAMIL LETTER KA",
text! "0B99..0B9A    ; Alphabetic # Lo   [2] TAMIL LETTER NGA..TAMIL LETTER CA",
text! "0B9C          ; Alphabetic # Lo       TAMIL LETTER JA",
text! "0B9E..0B9F    ; Alphabetic # Lo   [2] TAMIL LETTER NYA..TAMIL LETTER TTA",
text! "0BA3..0BA4    ; Alphabetic # Lo   [2] TAMIL LETTER NNA..TAMIL LETTER TA",
text! "0BA8..0BAA    ; Alphabetic # Lo   [3] TAMIL LETTER NA..TAMIL LETTER PA",
text! "0BAE..0BB9    ; Alphabetic # Lo  [12] TAMIL LETTER MA..TAMIL LETTER HA",
text! "0BBE..0BBF    ; Alphabetic # Mc   [2] TAMIL VOWEL SIGN AA..TAMIL VOWEL SIGN I",
text! "0BC0          ; Alphabetic # Mn       TAMIL VOWEL SIGN II",
text! "0BC1..0BC2    ; Alphabetic # Mc   [2] TAMIL VOWEL SIGN U..TAMIL VOWEL SIGN UU",
text! "0BC6..0BC8    ; Alphabetic # Mc   [3] TAMIL VOWEL SIGN E..TAMIL VOWEL SIGN AI",
text! "0BCA..0BCC    ; Alphabetic # Mc   [3] TAMIL VOWEL SIGN O..TAMIL VOWEL SIGN AU",
text! "0BD0          ; Alphabetic # Lo       TAMIL OM",
text! "0BD7          ; Alphabetic # Mc       TAMIL AU LENGTH MARK",
text! "0C00          ; Alphabetic # Mn       TELUGU SIGN COMBINING CANDRABINDU ABOVE",
text! "0C01..0C03    ; Alphabetic # Mc   [3] TELUGU SIGN CANDRABINDU..TELUGU SIGN VISARGA",
text! "0C04          ; Alphabetic # Mn       TELUGU SIGN COMBINING ANUSVARA ABOVE",
text! "0C05..0C0C    ; Alphabetic # Lo   [8] TELUGU LETTER A..TELUGU LETTER VOCALIC L",
text! "0C0E..0C10    ; Alphabetic # Lo   [3] TELUGU LETTER E..TELUGU LETTER AI",
text! "0C12..0C28    ; Alphabetic # Lo  [23] TELUGU LETTER O..TELUGU LETTER NA",
text! "0C2A..0C39    ; Alphabetic # Lo  [16] TELUGU LETTER PA..TELUGU LETTER HA",
text! "0C3D          ; Alphabetic # Lo       TELUGU SIGN AVAGRAHA",
text! "0C3E..0C40    ; Alphabetic # Mn   [3] TELUGU VOWEL SIGN AA..TELUGU VOWEL SIGN II",
text! "0C41..0C44    ; Alphabetic # Mc   [4] TELUGU VOWEL SIGN U..TELUGU VOWEL SIGN VOCALIC RR",
text! "0C46..0C48    ; Alphabetic # Mn   [3] TELUGU VOWEL SIGN E..TELUGU VOWEL SIGN AI",
text! "0C4A..0C4C    ; Alphabetic # Mn   [3] TELUGU VOWEL SIGN O..TELUGU VOWEL SIGN AU",
text! "0C55..0C56    ; Alphabetic # Mn   [2] TELUGU LENGTH MARK..TELUGU AI LENGTH MARK",
text! "0C58..0C5A    ; Alphabetic # Lo   [3] TELUGU LETTER TSA..TELUGU LETTER RRRA",
text! "0C5C..0C5D    ; Alphabetic # Lo   [2] TELUGU ARCHAIC SHRII..TELUGU LETTER NAKAARA POLLU",
text! "0C60..0C61    ; Alphabetic # Lo   [2] TELUGU LETTER VOCALIC RR..TELUGU LETTER VOCALIC LL",
text! "0C62..0C63    ; Alphabetic # Mn   [2] TELUGU VOWEL SIGN VOCALIC L..TELUGU VOWEL SIGN VOCALIC LL",
text! "0C80          ; Alphabetic # Lo       KANNADA SIGN SPACING CANDRABINDU",
text! "0C81          ; Alphabetic # Mn       KANNADA SIGN CANDRABINDU",
text! "0C82..0C83    ; Alphabetic # Mc   [2] KANNADA SIGN ANUSVARA..KANNADA SIGN VISARGA",
text! "0C85..0C8C    ; Alphabetic # Lo   [8] KANNADA LETTER A..KANNADA LETTER VOCALIC L",
text! "0C8E..0C90    ; Alphabetic # Lo   [3] KANNADA LETTER E..KANNADA LETTER AI",
text! "0C92..0CA8    ; Alphabetic # Lo  [23] KANNADA LETTER O..KANNADA LETTER NA",
text! "0CAA..0CB3    ; Alphabetic # Lo  [10] KANNADA LETTER PA..KANNADA LETTER LLA",
text! "0CB5..0CB9    ; Alphabetic # Lo   [5] KANNADA LETTER VA..KANNADA LETTER HA",
text! "0CBD          ; Alphabetic # Lo       KANNADA SIGN AVAGRAHA",
text! "0CBE          ; Alphabetic # Mc       KANNADA VOWEL SIGN AA",
text! "0CBF          ; Alphabetic # Mn       KANNADA VOWEL SIGN I",
text! "0CC0..0CC4    ; Alphabetic # Mc   [5] KANNADA VOWEL SIGN II..KANNADA VOWEL SIGN VOCALIC RR",
text! "0CC6          ; Alphabetic # Mn       KANNADA VOWEL SIGN E",
text! "0CC7..0CC8    ; Alphabetic # Mc   [2] KANNADA VOWEL SIGN EE..KANNADA VOWEL SIGN AI",
text! "0CCA..0CCB    ; Alphabetic # Mc   [2] KANNADA VOWEL SIGN O..KANNADA VOWEL SIGN OO",
text! "0CCC          ; Alphabetic # Mn       KANNADA VOWEL SIGN AU",
text! "0CD5..0CD6    ; Alphabetic # Mc   [2] KANNADA LENGTH MARK..KANNADA AI LENGTH MARK",
text! "0CDC..0CDE    ; Alphabetic # Lo   [3] KANNADA ARCHAIC SHRII..KANNADA LETTER FA",
text! "0CE0..0CE1    ; Alphabetic # Lo   [2] KANNADA LETTER VOCALIC RR..KANNADA LETTER VOCALIC LL",
text! "0CE2..0CE3    ; Alphabetic # Mn   [2] KANNADA VOWEL SIGN VOCALIC L..KANNADA VOWEL SIGN VOCALIC LL",
text! "0CF1..0CF2    ; Alphabetic # Lo   [2] KANNADA SIGN JIHVAMULIYA..KANNADA SIGN UPADHMANIYA",
text! "0CF3          ; Alphabetic # Mc       KANNADA SIGN COMBINING ANUSVARA ABOVE RIGHT",
text! "0D00..0D01    ; Alphabetic # Mn   [2] MALAYALAM SIGN COMBINING ANUSVARA ABOVE..MALAYALAM SIGN CANDRABINDU",
text! "0D02..0D03    ; Alphabetic # Mc   [2] MALAYALAM SIGN ANUSVARA..MALAYALAM SIGN VISARGA",
text! "0D04..0D0C    ; Alphabetic # Lo   [9] MALAYALAM LETTER VEDIC ANUSVARA..MALAYALAM LETTER VOCALIC L",
text! "0D0E..0D10    ; Alphabetic # Lo   [3] MALAYALAM LETTER E..MALAYALAM LETTER AI",
text! "0D12..0D3A    ; Alphabetic # Lo  [41] MALAYALAM LETTER O..MALAYALAM LETTER TTTA",
text! "0D3D          ; Alphabetic # Lo       MALAYALAM SIGN AVAGRAHA"]

/-- lines 513-576 -/
def derivedCore8 : List Nat := [
text! "0D3E..0D40    ; Alphabetic # Mc   [3] MALAYALAM VOWEL SIGN AA..MALAYALAM VOWEL SIGN II",
text! "0D41..0D44    ; Alphabetic # Mn   [4] MALAYALAM VOWEL SIGN U..MALAYALAM VOWEL SIGN VOCALIC RR",
text! "0D46..0D48    ; Alphabetic # Mc   [3] MALAYALAM VOWEL SIGN E..MALAYALAM VOWEL SIGN AI",
text! "0D4A..0D4C    ; Alphabetic # Mc   [3] MALAYALAM VOWEL SIGN O..MALAYALAM VOWEL SIGN AU",
text! "0D4E          ; Alphabetic # Lo       MALAYALAM LETTER DOT REPH",
text! "0D54..0D56    ; Alphabetic # Lo   [3] MALAYALAM LETTER CHILLU M..MALAYALAM LETTER CHILLU LLL",
text! "0D57          ; Alphabetic # Mc       MALAYALAM AU LENGTH MARK",
text! "0D5F..0D61    ; Alphabetic # Lo   [3] MALAYALAM LETTER ARCHAIC II..MALAYALAM LETTER VOCALIC LL",
text! "0D62..0D63    ; Alphabetic # Mn   [2] MALAYALAM VOWEL SIGN VOCALIC L..MALAYALAM VOWEL SIGN VOCALIC LL",
text! "0D7A..0D7F    ; Alphabetic # Lo   [6] MALAYALAM LETTER CHILLU NN..MALAYALAM LETTER CHILLU K",
text! "0D81          ; Alphabetic # Mn       SINHALA SIGN CANDRABINDU",
text! "0D82..0D83    ; Alphabetic # Mc   [2] SINHALA SIGN ANUSVARAYA..SINHALA SIGN VISARGAYA",
text! "0D85..0D96    ; Alphabetic # Lo  [18] SINHALA LETTER AYANNA..SINHALA LETTER AUYANNA",
text! "0D9A..0DB1    ; Alphabetic # Lo  [24] SINHALA LETTER ALPAPRAANA KAYANNA..SINHALA LETTER DANTAJA NAYANNA",
text! "0DB3..0DBB    ; Alphabetic # Lo   [9] SINHALA LETTER SANYAKA DAYANNA..SINHALA LETTER RAYANNA",
text! "0DBD          ; Alphabetic # Lo       SINHALA LETTER DANTAJA LAYANNA",
text! "0DC0..0DC6    ; Alphabetic # Lo   [7] SINHALA LETTER VAYANNA..SINHALA LETTER FAYANNA",
text! "0DCF..0DD1    ; Alphabetic # Mc   [3] SINHALA VOWEL SIGN AELA-PILLA..SINHALA VOWEL SIGN DIGA AEDA-PILLA",
text! "0DD2..0DD4    ; Alphabetic # Mn   [3] SINHALA VOWEL SIGN KETTI IS-PILLA..SINHALA VOWEL SIGN KETTI PAA-PILLA",
text! "0DD6          ; Alphabetic # Mn       SINHALA VOWEL SIGN DIGA PAA-PILLA",
text! "0DD8..0DDF    ; Alphabetic # Mc   [8] SINHALA VOWEL SIGN GAETTA-PILLA..SINHALA VOWEL SIGN GAYANUKITTA",
text! "0DF2..0DF3    ; Alphabetic # Mc   [2] SINHALA VOWEL SIGN DIGA GAETTA-PILLA..SINHALA VOWEL SIGN DIGA GAYANUKITTA",
text! "0E01..0E30    ; Alphabetic # Lo  [48] THAI CHARACTER KO KAI..THAI CHARACTER SARA A",
text! "0E31          ; Alphabetic # Mn       THAI CHARACTER MAI HAN-AKAT",
text! "0E32..0E33    ; Alphabetic # Lo   [2] THAI CHARACTER SARA AA..THAI CHARACTER SARA AM",
text! "0E34..0E3A    ; Alphabetic # Mn   [7] THAI CHARACTER SARA I..THAI CHARACTER PHINTHU",
text! "0E40..0E45    ; Alphabetic # Lo   [6] THAI CHARACTER SARA E..THAI CHARACTER LAKKHANGYAO",
text! "0E46          ; Alphabetic # Lm       THAI CHARACTER MAIYAMOK",
text! "0E4D          ; Alphabetic # Mn       THAI CHARACTER NIKHAHIT",
text! "0E81..0E82    ; Alphabetic # Lo   [2] LAO LETTER KO..LAO LETTER KHO SUNG",
text! "0E84          ; Alphabetic # Lo       LAO LETTER KHO TAM",
text! "0E86..0E8A    ; Alphabetic # Lo   [5] LAO LETTER PALI GHA..LAO LETTER SO TAM",
text! "0E8C..0EA3    ; Alphabetic # Lo  [24] LAO LETTER PALI JHA..LAO LETTER LO LING",
text! "0EA5          ; Alphabetic # Lo       LAO LETTER LO LOOT",
text! "0EA7..0EB0    ; Alphabetic # Lo  [10] LAO LETTER WO..LAO VOWEL SIGN A",
text! "0EB1          ; Alphabetic # Mn       LAO VOWEL SIGN MAI KAN",
text! "0EB2..0EB3    ; Alphabetic # Lo   [2] LAO VOWEL SIGN AA..LAO VOWEL SIGN AM",
text! "0EB4..0EB9    ; Alphabetic # Mn   [6] LAO VOWEL SIGN I..LAO VOWEL SIGN UU",
text! "0EBB..0EBC    ; Alphabetic # Mn   [2] LAO VOWEL SIGN MAI KON..LAO SEMIVOWEL SIGN LO",
text! "0EBD          ; Alphabetic # Lo       LAO SEMIVOWEL SIGN NYO",
text! "0EC0..0EC4    ; Alphabetic # Lo   [5] LAO VOWEL SIGN E..LAO VOWEL SIGN AI",
text! "0EC6          ; Alphabetic # Lm       LAO KO LA",
text! "0ECD          ; Alphabetic # Mn       LAO NIGGAHITA",
text! "0EDC..0EDF    ; Alphabetic # Lo   [4] LAO HO NO..LAO LETTER KHMU NYO",
text! "0F00          ; Alphabetic # Lo       TIBETAN SYLLABLE OM",
text! "0F40..0F47    ; Alphabetic # Lo   [8] TIBETAN LETTER KA..TIBETAN LETTER JA",
text! "0F49..0F6C    ; Alphabetic # Lo  [36] TIBETAN LETTER NYA..TIBETAN LETTER RRA",
text! "0F71..0F7E    ; Alphabetic # Mn  [14] TIBETAN VOWEL SIGN AA..TIBETAN SIGN RJES SU NGA RO",
text! "0F7F          ; Alphabetic # Mc       TIBETAN SIGN RNAM BCAD",
text! "0F80..0F83    ; Alphabetic # Mn   [4] TIBETAN VOWEL SIGN REVERSED I..TIBETAN SIGN SNA LDAN",
text! "0F88..0F8C    ; Alphabetic # Lo   [5] TIBETAN SIGN LCE TSA CAN..TIBETAN SIGN INVERTED MCHU CAN",
text! "0F8D..0F97    ; Alphabetic # Mn  [11] TIBETAN SUBJOINED SIGN LCE TSA CAN..TIBETAN SUBJOINED LETTER JA",
text! "0F99..0FBC    ; Alphabetic # Mn  [36] TIBETAN SUBJOINED LETTER NYA..TIBETAN SUBJOINED LETTER FIXED-FORM RA",
text! "1000..102A    ; Alphabetic # Lo  [43] MYANMAR LETTER KA..MYANMAR LETTER AU",
text! "102B..102C    ; Alphabetic # Mc   [2] MYANMAR VOWEL SIGN TALL AA..MYANMAR VOWEL SIGN AA",
text! "102D..1030    ; Alphabetic # Mn   [4] MYANMAR VOWEL SIGN I..MYANMAR VOWEL SIGN UU",
text! "1031          ; Alphabetic # Mc       MYANMAR VOWEL SIGN E",
text! "1032..1036    ; Alphabetic # Mn   [5] MYANMAR VOWEL SIGN AI..MYANMAR SIGN ANUSVARA",
text! "1038          ; Alphabetic # Mc       MYANMAR SIGN VISARGA",
text! "103B..103C    ; Alphabetic # Mc   [2] MYANMAR CONSONANT SIGN MEDIAL YA..MYANMAR CONSONANT SIGN MEDIAL RA",
text! "103D..103E    ; Alphabetic # Mn   [2] MYANMAR CONSONANT SIGN MEDIAL WA..MYANMAR CONSONANT SIGN MEDIAL HA",
text! "103F          ; Alphabetic # Lo       MYANMAR LETTER GREAT SA",
text! "1050..1055    ; Alphabetic # Lo   [6] MYANMAR LETTER SHA..MYANMAR LETTER VOCALIC LL",
text! "1056..1057    ; Alphabetic # Mc   [2] MYANMAR VOWEL SIGN VOCALIC R..MYANMAR VOWEL SIGN VOCALIC RR"]

/-- lines 577-640 -/
def derivedCore9 : List Nat := [
text! "1058..1059    ; Alphabetic # Mn   [2] MYANMAR VOWEL SIGN VOCALIC L..MYANMAR VOWEL SIGN VOCALIC LL",
text! "105A..105D    ; Alphabetic # Lo   [4] MYANMAR LETTER MON NGA..MYANMAR LETTER MON BBE",
text! "105E..1060    ; Alphabetic # Mn   [3] MYANMAR CONSONANT SIGN MON MEDIAL NA..MYANMAR CONSONANT SIGN MON MEDIAL LA",
text! "1061          ; Alphabetic # Lo       MYANMAR LETTER SGAW KAREN SHA",
text! "1062..1064    ; Alphabetic # Mc   [3] MYANMAR VOWEL SIGN SGAW KAREN EU..MYANMAR TONE MARK SGAW KAREN KE PHO",
text! "1065..1066    ; Alphabetic # Lo   [2] MYANMAR LETTER WESTERN PWO KAREN THA..MYANMAR LETTER WESTERN PWO KAREN PWA",
text! "1067..106D    ; Alphabetic # Mc   [7] MYANMAR VOWEL SIGN WESTERN PWO KAREN EU..MYANMAR SIGN WESTERN PWO KAREN TONE-5",
text! "106E..1070    ; Alphabetic # Lo   [3] MYANMAR LETTER EASTERN PWO KAREN NNA..MYANMAR LETTER EASTERN PWO KAREN GHWA",
text! "1071..1074    ; Alphabetic # Mn   [4] MYANMAR VOWEL SIGN GEBA KAREN I..MYANMAR VOWEL SIGN KAYAH EE",
text! "1075..1081    ; Alphabetic # Lo  [13] MYANMAR LETTER SHAN KA..MYANMAR LETTER SHAN HA",
text! "1082          ; Alphabetic # Mn       MYANMAR CONSONANT SIGN SHAN MEDIAL WA",
text! "1083..1084    ; Alphabetic # Mc   [2] MYANMAR VOWEL SIGN SHAN AA..MYANMAR VOWEL SIGN SHAN E",
text! "1085..1086    ; Alphabetic # Mn   [2] MYANMAR VOWEL SIGN SHAN E ABOVE..MYANMAR VOWEL SIGN SHAN FINAL Y",
text! "1087..108C    ; Alphabetic # Mc   [6] MYANMAR SIGN SHAN TONE-2..MYANMAR SIGN SHAN COUNCIL TONE-3",
text! "108D          ; Alphabetic # Mn       MYANMAR SIGN SHAN COUNCIL EMPHATIC TONE",
text! "108E          ; Alphabetic # Lo       MYANMAR LETTER RUMAI PALAUNG FA",
text! "108F          ; Alphabetic # Mc       MYANMAR SIGN RUMAI PALAUNG TONE-5",
text! "109A..109C    ; Alphabetic # Mc   [3] MYANMAR SIGN KHAMTI TONE-1..MYANMAR VOWEL SIGN AITON A",
text! "109D          ; Alphabetic # Mn       MYANMAR VOWEL SIGN AITON AI",
text! "10A0..10C5    ; Alphabetic # L&  [38] GEORGIAN CAPITAL LETTER AN..GEORGIAN CAPITAL LETTER HOE",
text! "10C7          ; Alphabetic # L&       GEORGIAN CAPITAL LETTER YN",
text! "10CD          ; Alphabetic # L&       GEORGIAN CAPITAL LETTER AEN",
text! "10D0..10FA    ; Alphabetic # L&  [43] GEORGIAN LETTER AN..GEORGIAN LETTER AIN",
text! "10FC          ; Alphabetic # Lm       MODIFIER LETTER GEORGIAN NAR",
text! "10FD..10FF    ; Alphabetic # L&   [3] GEORGIAN LETTER AEN..GEORGIAN LETTER LABIAL SIGN",
text! "1100..1248    ; Alphabetic # Lo [329] HANGUL CHOSEONG KIYEOK..ETHIOPIC SYLLABLE QWA",
text! "124A..124D    ; Alphabetic # Lo   [4] ETHIOPIC SYLLABLE QWI..ETHIOPIC SYLLABLE QWE",
text! "1250..1256    ; Alphabetic # Lo   [7] ETHIOPIC SYLLABLE QHA..ETHIOPIC SYLLABLE QHO",
text! "1258          ; Alphabetic # Lo       ETHIOPIC SYLLABLE QHWA",
text! "125A..125D    ; Alphabetic # Lo   [4] ETHIOPIC SYLLABLE QHWI..ETHIOPIC SYLLABLE QHWE",
text! "1260..1288    ; Alphabetic # Lo  [41] ETHIOPIC SYLLABLE BA..ETHIOPIC SYLLABLE XWA",
text! "128A..128D    ; Alphabetic # Lo   [4] ETHIOPIC SYLLABLE XWI..ETHIOPIC SYLLABLE XWE",
text! "1290..12B0    ; Alphabetic # Lo  [33] ETHIOPIC SYLLABLE NA..ETHIOPIC SYLLABLE KWA",
text! "12B2..12B5    ; Alphabetic # Lo   [4] ETHIOPIC SYLLABLE KWI..ETHIOPIC SYLLABLE KWE",
text! "12B8..12BE    ; Alphabetic # Lo   [7] ETHIOPIC SYLLABLE KXA..ETHIOPIC SYLLABLE KXO",
text! "12C0          ; Alphabetic # Lo       ETHIOPIC SYLLABLE KXWA",
text! "12C2..12C5    ; Alphabetic # Lo   [4] ETHIOPIC SYLLABLE KXWI..ETHIOPIC SYLLABLE KXWE",
text! "12C8..12D6    ; Alphabetic # Lo  [15] ETHIOPIC SYLLABLE WA..ETHIOPIC SYLLABLE PHARYNGEAL O",
text! "12D8..1310    ; Alphabetic # Lo  [57] ETHIOPIC SYLLABLE ZA..ETHIOPIC SYLLABLE GWA",
text! "1312..1315    ; Alphabetic # Lo   [4] ETHIOPIC SYLLABLE GWI..ETHIOPIC SYLLABLE GWE",
text! "1318..135A    ; Alphabetic # Lo  [67] ETHIOPIC SYLLABLE GGA..ETHIOPIC SYLLABLE FYA",
text! "1380..138F    ; Alphabetic # Lo  [16] ETHIOPIC SYLLABLE SEBATBEIT MWA..ETHIOPIC SYLLABLE PWE",
text! "13A0..13F5    ; Alphabetic # L&  [86] CHEROKEE LETTER A..CHEROKEE LETTER MV",
text! "13F8..13FD    ; Alphabetic # L&   [6] CHEROKEE SMALL LETTER YE..CHEROKEE SMALL LETTER MV",
text! "1401..166C    ; Alphabetic # Lo [620] CANADIAN SYLLABICS E..CANADIAN SYLLABICS CARRIER TTSA",
text! "166F..167F    ; Alphabetic # Lo  [17] CANADIAN SYLLABICS QAI..CANADIAN SYLLABICS BLACKFOOT W",
text! "1681..169A    ; Alphabetic # Lo  [26] OGHAM LETTER BEITH..OGHAM LETTER PEITH",
text! "16A0..16EA    ; Alphabetic # Lo  [75] RUNIC LETTER FEHU FEOH FE F..RUNIC LETTER X",
text! "16EE..16F0    ; Alphabetic # Nl   [3] RUNIC ARLAUG SYMBOL..RUNIC BELGTHOR SYMBOL",
text! "16F1..16F8    ; Alphabetic # Lo   [8] RUNIC LETTER K..RUNIC LETTER FRANKS CASKET AESC",
text! "1700..1711    ; Alphabetic # Lo  [18] TAGALOG LETTER A..TAGALOG LETTER HA",
text! "1712..1713    ; Alphabetic # Mn   [2] TAGALOG VOWEL SIGN I..TAGALOG VOWEL SIGN U",
text! "171F..1731    ; Alphabetic # Lo  [19] TAGALOG LETTER ARCHAIC RA..HANUNOO LETTER HA",
text! "1732..1733    ; Alphabetic # Mn   [2] HANUNOO VOWEL SIGN I..HANUNOO VOWEL SIGN U",
text! "1740..1751    ; Alphabetic # Lo  [18] BUHID LETTER A..BUHID LETTER HA",
text! "1752..1753    ; Alphabetic # Mn   [2] BUHID VOWEL SIGN I..BUHID VOWEL SIGN U",
text! "1760..176C    ; Alphabetic # Lo  [13] TAGBANWA LETTER A..TAGBANWA LETTER YA",
text! "176E..1770    ; Alphabetic # Lo   [3] TAGBANWA LETTER LA..TAGBANWA LETTER SA",
text! "1772..1773    ; Alphabetic # Mn   [2] TAGBANWA VOWEL SIGN I..TAGBANWA VOWEL SIGN U",
text! "1780..17B3    ; Alphabetic # Lo  [52] KHMER LETTER KA..KHMER INDEPENDENT VOWEL QAU",
text! "17B6          ; Alphabetic # Mc       KHMER VOWEL SIGN AA",
text! "17B7..17BD    ; Alphabetic # Mn   [7] KHMER VOWEL SIGN I..KHMER VOWEL SIGN UA",
text! "17BE..17C5    ; Alphabetic # Mc   [8] KHMER VOWEL SIGN OE..KHMER VOWEL SIGN AU",
text! "17C6          ; Alphabetic # Mn       KHMER SIGN NIKAHIT"]

/-- lines 641-704 -/
def derivedCore10 : List Nat := [
text! "17C7..17C8    ; Alphabetic # Mc   [2] KHMER SIGN REAHMUK..KHMER SIGN YUUKALEAPINTU",
text! "17D7          ; Alphabetic # Lm       KHMER SIGN LEK TOO",
text! "17DC          ; Alphabetic # Lo       KHMER SIGN AVAKRAHASANYA",
text! "1820..1842    ; Alphabetic # Lo  [35] MONGOLIAN LETTER A..MONGOLIAN LETTER CHI",
text! "1843          ; Alphabetic # Lm       MONGOLIAN LETTER TODO LONG VOWEL SIGN",
text! "1844..1878    ; Alphabetic # Lo  [53] MONGOLIAN LETTER TODO E..MONGOLIAN LETTER CHA WITH TWO DOTS",
text! "1880..1884    ; Alphabetic # Lo   [5] MONGOLIAN LETTER ALI GALI ANUSVARA ONE..MONGOLIAN LETTER ALI GALI INVERTED UBADAMA",
text! "1885..1886    ; Alphabetic # Mn   [2] MONGOLIAN LETTER ALI GALI BALUDA..MONGOLIAN LETTER ALI GALI THREE BALUDA",
text! "1887..18A8    ; Alphabetic # Lo  [34] MONGOLIAN LETTER ALI GALI A..MONGOLIAN LETTER MANCHU ALI GALI BHA",
text! "18A9          ; Alphabetic # Mn       MONGOLIAN LETTER ALI GALI DAGALGA",
text! "18AA          ; Alphabetic # Lo       MONGOLIAN LETTER MANCHU ALI GALI LHA",
text! "18B0..18F5    ; Alphabetic # Lo  [70] CANADIAN SYLLABICS OY..CANADIAN SYLLABICS CARRIER DENTAL S",
text! "1900..191E    ; Alphabetic # Lo  [31] LIMBU VOWEL-CARRIER LETTER..LIMBU LETTER TRA",
text! "1920..1922    ; Alphabetic # Mn   [3] LIMBU VOWEL SIGN A..LIMBU VOWEL SIGN U",
text! "1923..1926    ; Alphabetic # Mc   [4] LIMBU VOWEL SIGN EE..LIMBU VOWEL SIGN AU",
text! "1927..1928    ; Alphabetic # Mn   [2] LIMBU VOWEL SIGN E..LIMBU VOWEL SIGN O",
text! "1929..192B    ; Alphabetic # Mc   [3] LIMBU SUBJOINED LETTER YA..LIMBU SUBJOINED LETTER WA",
text! "1930..1931    ; Alphabetic # Mc   [2] LIMBU SMALL LETTER KA..LIMBU SMALL LETTER NGA",
text! "1932          ; Alphabetic # Mn       LIMBU SMALL LETTER ANUSVARA",
text! "1933..1938    ; Alphabetic # Mc   [6] LIMBU SMALL LETTER TA..LIMBU SMALL LETTER LA",
text! "1950..196D    ; Alphabetic # Lo  [30] TAI LE LETTER KA..TAI LE LETTER AI",
text! "1970..1974    ; Alphabetic # Lo   [5] TAI LE LETTER TONE-2..TAI LE LETTER TONE-6",
text! "1980..19AB    ; Alphabetic # Lo  [44] NEW TAI LUE LETTER HIGH QA..NEW TAI LUE LETTER LOW SUA",
text! "19B0..19C9    ; Alphabetic # Lo  [26] NEW TAI LUE VOWEL SIGN VOWEL SHORTENER..NEW TAI LUE TONE MARK-2",
text! "1A00..1A16    ; Alphabetic # Lo  [23] BUGINESE LETTER KA..BUGINESE LETTER HA",
text! "1A17..1A18    ; Alphabetic # Mn   [2] BUGINESE VOWEL SIGN I..BUGINESE VOWEL SIGN U",
text! "1A19..1A1A    ; Alphabetic # Mc   [2] BUGINESE VOWEL SIGN E..BUGINESE VOWEL SIGN O",
text! "1A1B          ; Alphabetic # Mn       BUGINESE VOWEL SIGN AE",
text! "1A20..1A54    ; Alphabetic # Lo  [53] TAI THAM LETTER HIGH KA..TAI THAM LETTER GREAT SA",
text! "1A55          ; Alphabetic # Mc       TAI THAM CONSONANT SIGN MEDIAL RA",
text! "1A56          ; Alphabetic # Mn       TAI THAM CONSONANT SIGN MEDIAL LA",
text! "1A57          ; Alphabetic # Mc       TAI THAM CONSONANT SIGN LA TANG LAI",
text! "1A58..1A5E    ; Alphabetic # Mn   [7] TAI THAM SIGN MAI KANG LAI..TAI THAM CONSONANT SIGN SA",
text! "1A61          ; Alphabetic # Mc       TAI THAM VOWEL SIGN A",
text! "1A62          ; Alphabetic # Mn       TAI THAM VOWEL SIGN MAI SAT",
text! "1A63..1A64    ; Alphabetic # Mc   [2] TAI THAM VOWEL SIGN AA..TAI THAM VOWEL SIGN TALL AA",
text! "1A65..1A6C    ; Alphabetic # Mn   [8] TAI THAM VOWEL SIGN I..TAI THAM VOWEL SIGN OA BELOW",
text! "1A6D..1A72    ; Alphabetic # Mc   [6] TAI THAM VOWEL SIGN OY..TAI THAM VOWEL SIGN THAM AI",
text! "1A73..1A74    ; Alphabetic # Mn   [2] TAI THAM VOWEL SIGN OA ABOVE..TAI THAM SIGN MAI KANG",
text! "1AA7          ; Alphabetic # Lm       TAI THAM SIGN MAI YAMOK",
text! "1ABF..1AC0    ; Alphabetic # Mn   [2] COMBINING LATIN SMALL LETTER W BELOW..COMBINING LATIN SMALL LETTER TURNED W BELOW",
text! "1ACC..1ACE    ; Alphabetic # Mn   [3] COMBINING LATIN SMALL LETTER INSULAR G..COMBINING LATIN SMALL LETTER INSULAR T",
text! "1B00..1B03    ; Alphabetic # Mn   [4] BALINESE SIGN ULU RICEM..BALINESE SIGN SURANG",
text! "1B04          ; Alphabetic # Mc       BALINESE SIGN BISAH",
text! "1B05..1B33    ; Alphabetic # Lo  [47] BALINESE LETTER AKARA..BALINESE LETTER HA",
text! "1B35          ; Alphabetic # Mc       BALINESE VOWEL SIGN TEDUNG",
text! "1B36..1B3A    ; Alphabetic # Mn   [5] BALINESE VOWEL SIGN ULU..BALINESE VOWEL SIGN RA REPA",
text! "1B3B          ; Alphabetic # Mc       BALINESE VOWEL SIGN RA REPA TEDUNG",
text! "1B3C          ; Alphabetic # Mn       BALINESE VOWEL SIGN LA LENGA",
text! "1B3D..1B41    ; Alphabetic # Mc   [5] BALINESE VOWEL SIGN LA LENGA TEDUNG..BALINESE VOWEL SIGN TALING REPA TEDUNG",
text! "1B42          ; Alphabetic # Mn       BALINESE VOWEL SIGN PEPET",
text! "1B43          ; Alphabetic # Mc       BALINESE VOWEL SIGN PEPET TEDUNG",
text! "1B45..1B4C    ; Alphabetic # Lo   [8] BALINESE LETTER KAF SASAK..BALINESE LETTER ARCHAIC JNYA",
text! "1B80..1B81    ; Alphabetic # Mn   [2] SUNDANESE SIGN PANYECEK..SUNDANESE SIGN PANGLAYAR",
text! "1B82          ; Alphabetic # Mc       SUNDANESE SIGN PANGWISAD",
text! "1B83..1BA0    ; Alphabetic # Lo  [30] SUNDANESE LETTER A..SUNDANESE LETTER HA",
text! "1BA1          ; Alphabetic # Mc       SUNDANESE CONSONANT SIGN PAMINGKAL",
text! "1BA2..1BA5    ; Alphabetic # Mn   [4] SUNDANESE CONSONANT SIGN PANYAKRA..SUNDANESE VOWEL SIGN PANYUKU",
text! "1BA6..1BA7    ; Alphabetic # Mc   [2] SUNDANESE VOWEL SIGN PANAELAENG..SUNDANESE VOWEL SIGN PANOLONG",
text! "1BA8..1BA9    ; Alphabetic # Mn   [2] SUNDANESE VOWEL SIGN PAMEPET..SUNDANESE VOWEL SIGN PANEULEUNG",
text! "1BAC..1BAD    ; Alphabetic # Mn   [2] SUNDANESE CONSONANT SIGN PASANGAN MA..SUNDANESE CONSONANT SIGN PASANGAN WA",
text! "1BAE..1BAF    ; Alphabetic # Lo   [2] SUNDANESE LETTER KHA..SUNDANESE LETTER SYA",
text! "1BBA..1BE5    ; Alphabetic # Lo  [44] SUNDANESE AVAGRAHA..BATAK LETTER U",
text! "1BE7          ; Alphabetic # Mc       BATAK VOWEL SIGN E"]

/-- lines 705-768 -/
def derivedCore11 : List Nat := [
text! "1BE8..1BE9    ; Alphabetic # Mn   [2] BATAK VOWEL SIGN PAKPAK E..BATAK VOWEL SIGN EE",
text! "1BEA..1BEC    ; Alphabetic # Mc   [3] BATAK VOWEL SIGN I..BATAK VOWEL SIGN O",
text! "1BED          ; Alphabetic # Mn       BATAK VOWEL SIGN KARO O",
text! "1BEE          ; Alphabetic # Mc       BATAK VOWEL SIGN U",
text! "1BEF..1BF1    ; Alphabetic # Mn   [3] BATAK VOWEL SIGN U FOR SIMALUNGUN SA..BATAK CONSONANT SIGN H",
text! "1C00..1C23    ; Alphabetic # Lo  [36] LEPCHA LETTER KA..LEPCHA LETTER A",
text! "1C24..1C2B    ; Alphabetic # Mc   [8] LEPCHA SUBJOINED LETTER YA..LEPCHA VOWEL SIGN UU",
text! "1C2C..1C33    ; Alphabetic # Mn   [8] LEPCHA VOWEL SIGN E..LEPCHA CONSONANT SIGN T",
text! "1C34..1C35    ; Alphabetic # Mc   [2] LEPCHA CONSONANT SIGN NYIN-DO..LEPCHA CONSONANT SIGN KANG",
text! "1C36          ; Alphabetic # Mn       LEPCHA SIGN RAN",
text! "1C4D..1C4F    ; Alphabetic # Lo   [3] LEPCHA LETTER TTA..LEPCHA LETTER DDA",
text! "1C5A..1C77    ; Alphabetic # Lo  [30] OL CHIKI LETTER LA..OL CHIKI LETTER OH",
text! "1C78..1C7D    ; Alphabetic # Lm   [6] OL CHIKI MU TTUDDAG..OL CHIKI AHAD",
text! "1C80..1C8A    ; Alphabetic # L&  [11] CYRILLIC SMALL LETTER ROUNDED VE..CYRILLIC SMALL LETTER TJE",
text! "1C90..1CBA    ; Alphabetic # L&  [43] GEORGIAN MTAVRULI CAPITAL LETTER AN..GEORGIAN MTAVRULI CAPITAL LETTER AIN",
text! "1CBD..1CBF    ; Alphabetic # L&   [3] GEORGIAN MTAVRULI CAPITAL LETTER AEN..GEORGIAN MTAVRULI CAPITAL LETTER LABIAL SIGN",
text! "1CE9..1CEC    ; Alphabetic # Lo   [4] VEDIC SIGN ANUSVARA ANTARGOMUKHA..VEDIC SIGN ANUSVARA VAMAGOMUKHA WITH TAIL",
text! "1CEE..1CF3    ; Alphabetic # Lo   [6] VEDIC SIGN HEXIFORM LONG ANUSVARA..VEDIC SIGN ROTATED ARDHAVISARGA",
text! "1CF5..1CF6    ; Alphabetic # Lo   [2] VEDIC SIGN JIHVAMULIYA..VEDIC SIGN UPADHMANIYA",
text! "1CFA          ; Alphabetic # Lo       VEDIC SIGN DOUBLE ANUSVARA ANTARGOMUKHA",
text! "1D00..1D2B    ; Alphabetic # L&  [44] LATIN LETTER SMALL CAPITAL A..CYRILLIC LETTER SMALL CAPITAL EL",
text! "1D2C..1D6A    ; Alphabetic # Lm  [63] MODIFIER LETTER CAPITAL A..GREEK SUBSCRIPT SMALL LETTER CHI",
text! "1D6B..1D77    ; Alphabetic # L&  [13] LATIN SMALL LETTER UE..LATIN SMALL LETTER TURNED G",
text! "1D78          ; Alphabetic # Lm       MODIFIER LETTER CYRILLIC EN",
text! "1D79..1D9A    ; Alphabetic # L&  [34] LATIN SMALL LETTER INSULAR G..LATIN SMALL LETTER EZH WITH RETROFLEX HOOK",
text! "1D9B..1DBF    ; Alphabetic # Lm  [37] MODIFIER LETTER SMALL TURNED ALPHA..MODIFIER LETTER SMALL THETA",
text! "1DD3..1DF4    ; Alphabetic # Mn  [34] COMBINING LATIN SMALL LETTER FLATTENED OPEN A ABOVE..COMBINING LATIN SMALL LETTER U WITH DIAERESIS",
text! "1E00..1F15    ; Alphabetic # L& [278] LATIN CAPITAL LETTER A WITH RING BELOW..GREEK SMALL LETTER EPSILON WITH DASIA AND OXIA",
text! "1F18..1F1D    ; Alphabetic # L&   [6] GREEK CAPITAL LETTER EPSILON WITH PSILI..GREEK CAPITAL LETTER EPSILON WITH DASIA AND OXIA",
text! "1F20..1F45    ; Alphabetic # L&  [38] GREEK SMALL LETTER ETA WITH PSILI..GREEK SMALL LETTER OMICRON WITH DASIA AND OXIA",
text! "1F48..1F4D    ; Alphabetic # L&   [6] GREEK CAPITAL LETTER OMICRON WITH PSILI..GREEK CAPITAL LETTER OMICRON WITH DASIA AND OXIA",
text! "1F50..1F57    ; Alphabetic # L&   [8] GREEK SMALL LETTER UPSILON WITH PSILI..GREEK SMALL LETTER UPSILON WITH DASIA AND PERISPOMENI",
text! "1F59          ; Alphabetic # L&       GREEK CAPITAL LETTER UPSILON WITH DASIA",
text! "1F5B          ; Alphabetic # L&       GREEK CAPITAL LETTER UPSILON WITH DASIA AND VARIA",
text! "1F5D          ; Alphabetic # L&       GREEK CAPITAL LETTER UPSILON WITH DASIA AND OXIA",
text! "1F5F..1F7D    ; Alphabetic # L&  [31] GREEK CAPITAL LETTER UPSILON WITH DASIA AND PERISPOMENI..GREEK SMALL LETTER OMEGA WITH OXIA",
text! "1F80..1FB4    ; Alphabetic # L&  [53] GREEK SMALL LETTER ALPHA WITH PSILI AND YPOGEGRAMMENI..GREEK SMALL LETTER ALPHA WITH OXIA AND YPOGEGRAMMENI",
text! "1FB6..1FBC    ; Alphabetic # L&   [7] GREEK SMALL LETTER ALPHA WITH PERISPOMENI..GREEK CAPITAL LETTER ALPHA WITH PROSGEGRAMMENI",
text! "1FBE          ; Alphabetic # L&       GREEK PROSGEGRAMMENI",
text! "1FC2..1FC4    ; Alphabetic # L&   [3] GREEK SMALL LETTER ETA WITH VARIA AND YPOGEGRAMMENI..GREEK SMALL LETTER ETA WITH OXIA AND YPOGEGRAMMENI",
text! "1FC6..1FCC    ; Alphabetic # L&   [7] GREEK SMALL LETTER ETA WITH PERISPOMENI..GREEK CAPITAL LETTER ETA WITH PROSGEGRAMMENI",
text! "1FD0..1FD3    ; Alphabetic # L&   [4] GREEK SMALL LETTER IOTA WITH VRACHY..GREEK SMALL LETTER IOTA WITH DIALYTIKA AND OXIA",
text! "1FD6..1FDB    ; Alphabetic # L&   [6] GREEK SMALL LETTER IOTA WITH PERISPOMENI..GREEK CAPITAL LETTER IOTA WITH OXIA",
text! "1FE0..1FEC    ; Alphabetic # L&  [13] GREEK SMALL LETTER UPSILON WITH VRACHY..GREEK CAPITAL LETTER RHO WITH DASIA",
text! "1FF2..1FF4    ; Alphabetic # L&   [3] GREEK SMALL LETTER OMEGA WITH VARIA AND YPOGEGRAMMENI..GREEK SMALL LETTER OMEGA WITH OXIA AND YPOGEGRAMMENI",
text! "1FF6..1FFC    ; Alphabetic # L&   [7] GREEK SMALL LETTER OMEGA WITH PERISPOMENI..GREEK CAPITAL LETTER OMEGA WITH PROSGEGRAMMENI",
text! "2071          ; Alphabetic # Lm       SUPERSCRIPT LATIN SMALL LETTER I",
text! "207F          ; Alphabetic # Lm       SUPERSCRIPT LATIN SMALL LETTER N",
text! "2090..209C    ; Alphabetic # Lm  [13] LATIN SUBSCRIPT SMALL LETTER A..LATIN SUBSCRIPT SMALL LETTER T",
text! "2102          ; Alphabetic # L&       DOUBLE-STRUCK CAPITAL C",
text! "2107          ; Alphabetic # L&       EULER CONSTANT",
text! "210A..2113    ; Alphabetic # L&  [10] SCRIPT SMALL G..SCRIPT SMALL L",
text! "2115          ; Alphabetic # L&       DOUBLE-STRUCK CAPITAL N",
text! "2119..211D    ; Alphabetic # L&   [5] DOUBLE-STRUCK CAPITAL P..DOUBLE-STRUCK CAPITAL R",
text! "2124          ; Alphabetic # L&       DOUBLE-STRUCK CAPITAL Z",
text! "2126          ; Alphabetic # L&       OHM SIGN",
text! "2128          ; Alphabetic # L&       BLACK-LETTER CAPITAL Z",
text! "212A..212D    ; Alphabetic # L&   [4] KELVIN SIGN..BLACK-LETTER CAPITAL C",
text! "212F..2134    ; Alphabetic # L&   [6] SCRIPT SMALL E..SCRIPT SMALL O",
text! "2135..2138    ; Alphabetic # Lo   [4] ALEF SYMBOL..DALET SYMBOL",
text! "2139          ; Alphabetic # L&       INFORMATION SOURCE",
text! "213C..213F    ; Alphabetic # L&   [4] DOUBLE-STRUCK SMALL PI..DOUBLE-STRUCK CAPITAL PI",
text! "2145..2149    ; Alphabetic # L&   [5] DOUBLE-STRUCK ITALIC CAPITAL D..DOUBLE-STRUCK ITALIC SMALL J",
text! "214E          ; Alphabetic # L&       TURNED SMALL F"]

/-- lines 769-832 -/
def derivedCore12 : List Nat := [
text! "2160..2182    ; Alphabetic # Nl  [35] ROMAN NUMERAL ONE..ROMAN NUMERAL TEN THOUSAND",
text! "2183..2184    ; Alphabetic # L&   [2] ROMAN NUMERAL REVERSED ONE HUNDRED..LATIN SMALL LETTER REVERSED C",
text! "2185..2188    ; Alphabetic # Nl   [4] ROMAN NUMERAL SIX LATE FORM..ROMAN NUMERAL ONE HUNDRED THOUSAND",
text! "24B6..24E9    ; Alphabetic # So  [52] CIRCLED LATIN CAPITAL LETTER A..CIRCLED LATIN SMALL LETTER Z",
text! "2C00..2C7B    ; Alphabetic # L& [124] GLAGOLITIC CAPITAL LETTER AZU..LATIN LETTER SMALL CAPITAL TURNED E",
text! "2C7C..2C7D    ; Alphabetic # Lm   [2] LATIN SUBSCRIPT SMALL LETTER J..MODIFIER LETTER CAPITAL V",
text! "2C7E..2CE4    ; Alphabetic # L& [103] LATIN CAPITAL LETTER S WITH SWASH TAIL..COPTIC SYMBOL KAI",
text! "2CEB..2CEE    ; Alphabetic # L&   [4] COPTIC CAPITAL LETTER CRYPTOGRAMMIC SHEI..COPTIC SMALL LETTER CRYPTOGRAMMIC GANGIA",
text! "2CF2..2CF3    ; Alphabetic # L&   [2] COPTIC CAPITAL LETTER BOHAIRIC KHEI..COPTIC SMALL LETTER BOHAIRIC KHEI",
text! "2D00..2D25    ; Alphabetic # L&  [38] GEORGIAN SMALL LETTER AN..GEORGIAN SMALL LETTER HOE",
text! "2D27          ; Alphabetic # L&       GEORGIAN SMALL LETTER YN",
text! "2D2D          ; Alphabetic # L&       GEORGIAN SMALL LETTER AEN",
text! "2D30..2D67    ; Alphabetic # Lo  [56] TIFINAGH LETTER YA..TIFINAGH LETTER YO",
text! "2D6F          ; Alphabetic # Lm       TIFINAGH MODIFIER LETTER LABIALIZATION MARK",
text! "2D80..2D96    ; Alphabetic # Lo  [23] ETHIOPIC SYLLABLE LOA..ETHIOPIC SYLLABLE GGWE",
text! "2DA0..2DA6    ; Alphabetic # Lo   [7] ETHIOPIC SYLLABLE SSA..ETHIOPIC SYLLABLE SSO",
text! "2DA8..2DAE    ; Alphabetic # Lo   [7] ETHIOPIC SYLLABLE CCA..ETHIOPIC SYLLABLE CCO",
text! "2DB0..2DB6    ; Alphabetic # Lo   [7] ETHIOPIC SYLLABLE ZZA..ETHIOPIC SYLLABLE ZZO",
text! "2DB8..2DBE    ; Alphabetic # Lo   [7] ETHIOPIC SYLLABLE CCHA..ETHIOPIC SYLLABLE CCHO",
text! "2DC0..2DC6    ; Alphabetic # Lo   [7] ETHIOPIC SYLLABLE QYA..ETHIOPIC SYLLABLE QYO",
text! "2DC8..2DCE    ; Alphabetic # Lo   [7] ETHIOPIC SYLLABLE KYA..ETHIOPIC SYLLABLE KYO",
text! "2DD0..2DD6    ; Alphabetic # Lo   [7] ETHIOPIC SYLLABLE XYA..ETHIOPIC SYLLABLE XYO",
text! "2DD8..2DDE    ; Alphabetic # Lo   [7] ETHIOPIC SYLLABLE GYA..ETHIOPIC SYLLABLE GYO",
text! "2DE0..2DFF    ; Alphabetic # Mn  [32] COMBINING CYRILLIC LETTER BE..COMBINING CYRILLIC LETTER IOTIFIED BIG YUS",
text! "2E2F          ; Alphabetic # Lm       VERTICAL TILDE",
text! "3005          ; Alphabetic # Lm       IDEOGRAPHIC ITERATION MARK",
text! "3006          ; Alphabetic # Lo       IDEOGRAPHIC CLOSING MARK",
text! "3007          ; Alphabetic # Nl       IDEOGRAPHIC NUMBER ZERO",
text! "3021..3029    ; Alphabetic # Nl   [9] HANGZHOU NUMERAL ONE..HANGZHOU NUMERAL NINE",
text! "3031..3035    ; Alphabetic # Lm   [5] VERTICAL KANA REPEAT MARK..VERTICAL KANA REPEAT MARK LOWER HALF",
text! "3038..303A    ; Alphabetic # Nl   [3] HANGZHOU NUMERAL TEN..HANGZHOU NUMERAL THIRTY",
text! "303B          ; Alphabetic # Lm       VERTICAL IDEOGRAPHIC ITERATION MARK",
text! "303C          ; Alphabetic # Lo       MASU MARK",
text! "3041..3096    ; Alphabetic # Lo  [86] HIRAGANA LETTER SMALL A..HIRAGANA LETTER SMALL KE",
text! "309D..309E    ; Alphabetic # Lm   [2] HIRAGANA ITERATION MARK..HIRAGANA VOICED ITERATION MARK",
text! "309F          ; Alphabetic # Lo       HIRAGANA DIGRAPH YORI",
text! "30A1..30FA    ; Alphabetic # Lo  [90] KATAKANA LETTER SMALL A..KATAKANA LETTER VO",
text! "30FC..30FE    ; Alphabetic # Lm   [3] KATAKANA-HIRAGANA PROLONGED SOUND MARK..KATAKANA VOICED ITERATION MARK",
text! "30FF          ; Alphabetic # Lo       KATAKANA DIGRAPH KOTO",
text! "3105..312F    ; Alphabetic # Lo  [43] BOPOMOFO LETTER B..BOPOMOFO LETTER NN",
text! "3131..318E    ; Alphabetic # Lo  [94] HANGUL LETTER KIYEOK..HANGUL LETTER ARAEAE",
text! "31A0..31BF    ; Alphabetic # Lo  [32] BOPOMOFO LETTER BU..BOPOMOFO LETTER AH",
text! "31F0..31FF    ; Alphabetic # Lo  [16] KATAKANA LETTER SMALL KU..KATAKANA LETTER SMALL RO",
text! "3400..4DBF    ; Alphabetic # Lo [6592] CJK UNIFIED IDEOGRAPH-3400..CJK UNIFIED IDEOGRAPH-4DBF",
text! "4E00..A014    ; Alphabetic # Lo [21013] CJK UNIFIED IDEOGRAPH-4E00..YI SYLLABLE E",
text! "A015          ; Alphabetic # Lm       YI SYLLABLE WU",
text! "A016..A48C    ; Alphabetic # Lo [1143] YI SYLLABLE BIT..YI SYLLABLE YYR",
text! "A4D0..A4F7    ; Alphabetic # Lo  [40] LISU LETTER BA..LISU LETTER OE",
text! "A4F8..A4FD    ; Alphabetic # Lm   [6] LISU LETTER TONE MYA TI..LISU LETTER TONE MYA JEU",
text! "A500..A60B    ; Alphabetic # Lo [268] VAI SYLLABLE EE..VAI SYLLABLE NG",
text! "A60C          ; Alphabetic # Lm       VAI SYLLABLE LENGTHENER",
text! "A610..A61F    ; Alphabetic # Lo  [16] VAI SYLLABLE NDOLE FA..VAI SYMBOL JONG",
text! "A62A..A62B    ; Alphabetic # Lo   [2] VAI SYLLABLE NDOLE MA..VAI SYLLABLE NDOLE DO",
text! "A640..A66D    ; Alphabetic # L&  [46] CYRILLIC CAPITAL LETTER ZEMLYA..CYRILLIC SMALL LETTER DOUBLE MONOCULAR O",
text! "A66E          ; Alphabetic # Lo       CYRILLIC LETTER MULTIOCULAR O",
text! "A674..A67B    ; Alphabetic # Mn   [8] COMBINING CYRILLIC LETTER UKRAINIAN IE..COMBINING CYRILLIC LETTER OMEGA",
text! "A67F          ; Alphabetic # Lm       CYRILLIC PAYEROK",
text! "A680..A69B    ; Alphabetic # L&  [28] CYRILLIC CAPITAL LETTER DWE..CYRILLIC SMALL LETTER CROSSED O",
text! "A69C..A69D    ; Alphabetic # Lm   [2] MODIFIER LETTER CYRILLIC HARD SIGN..MODIFIER LETTER CYRILLIC SOFT SIGN",
text! "A69E..A69F    ; Alphabetic # Mn   [2] COMBINING CYRILLIC LETTER EF..COMBINING CYRILLIC LETTER IOTIFIED E",
text! "A6A0..A6E5    ; Alphabetic # Lo  [70] BAMUM LETTER A..BAMUM LETTER KI",
text! "A6E6..A6EF    ; Alphabetic # Nl  [10] BAMUM LETTER MO..BAMUM LETTER KOGHOM",
text! "A717..A71F    ; Alphabetic # Lm   [9] MODIFIER LETTER DOT VERTICAL BAR..MODIFIER LETTER LOW INVERTED EXCLAMATION MARK",
text! "A722..A76F    ; Alphabetic # L&  [78] LATIN CAPITAL LETTER EGYPTOLOGICAL ALEF..LATIN SMALL LETTER CON"]

/-- lines 833-896 -/
def derivedCore13 : List Nat := [
text! "A770          ; Alphabetic # Lm       MODIFIER LETTER US",
text! "A771..A787    ; Alphabetic # L&  [23] LATIN SMALL LETTER DUM..LATIN SMALL LETTER INSULAR T",
text! "A788          ; Alphabetic # Lm       MODIFIER LETTER LOW CIRCUMFLEX ACCENT",
text! "A78B..A78E    ; Alphabetic # L&   [4] LATIN CAPITAL LETTER SALTILLO..LATIN SMALL LETTER L WITH RETROFLEX HOOK AND BELT",
text! "A78F          ; Alphabetic # Lo       LATIN LETTER SINOLOGICAL DOT",
text! "A790..A7DC    ; Alphabetic # L&  [77] LATIN CAPITAL LETTER N WITH DESCENDER..LATIN CAPITAL LETTER LAMBDA WITH STROKE",
text! "A7F1..A7F4    ; Alphabetic # Lm   [4] MODIFIER LETTER CAPITAL S..MODIFIER LETTER CAPITAL Q",
text! "A7F5..A7F6    ; Alphabetic # L&   [2] LATIN CAPITAL LETTER REVERSED HALF H..LATIN SMALL LETTER REVERSED HALF H",
text! "A7F7          ; Alphabetic # Lo       LATIN EPIGRAPHIC LETTER SIDEWAYS I",
text! "A7F8..A7F9    ; Alphabetic # Lm   [2] MODIFIER LETTER CAPITAL H WITH STROKE..MODIFIER LETTER SMALL LIGATURE OE",
text! "A7FA          ; Alphabetic # L&       LATIN LETTER SMALL CAPITAL TURNED M",
text! "A7FB..A801    ; Alphabetic # Lo   [7] LATIN EPIGRAPHIC LETTER REVERSED F..SYLOTI NAGRI LETTER I",
text! "A802          ; Alphabetic # Mn       SYLOTI NAGRI SIGN DVISVARA",
text! "A803..A805    ; Alphabetic # Lo   [3] SYLOTI NAGRI LETTER U..SYLOTI NAGRI LETTER O",
text! "A807..A80A    ; Alphabetic # Lo   [4] SYLOTI NAGRI LETTER KO..SYLOTI NAGRI LETTER GHO",
text! "A80B          ; Alphabetic # Mn       SYLOTI NAGRI SIGN ANUSVARA",
text! "A80C..A822    ; Alphabetic # Lo  [23] SYLOTI NAGRI LETTER CO..SYLOTI NAGRI LETTER HO",
text! "A823..A824    ; Alphabetic # Mc   [2] SYLOTI NAGRI VOWEL SIGN A..SYLOTI NAGRI VOWEL SIGN I",
text! "A825..A826    ; Alphabetic # Mn   [2] SYLOTI NAGRI VOWEL SIGN U..SYLOTI NAGRI VOWEL SIGN E",
text! "A827          ; Alphabetic # Mc       SYLOTI NAGRI VOWEL SIGN OO",
text! "A840..A873    ; Alphabetic # Lo  [52] PHAGS-PA LETTER KA..PHAGS-PA LETTER CANDRABINDU",
text! "A880..A881    ; Alphabetic # Mc   [2] SAURASHTRA SIGN ANUSVARA..SAURASHTRA SIGN VISARGA",
text! "A882..A8B3    ; Alphabetic # Lo  [50] SAURASHTRA LETTER A..SAURASHTRA LETTER LLA",
text! "A8B4..A8C3    ; Alphabetic # Mc  [16] SAURASHTRA CONSONANT SIGN HAARU..SAURASHTRA VOWEL SIGN AU",
text! "A8C5          ; Alphabetic # Mn       SAURASHTRA SIGN CANDRABINDU",
text! "A8F2..A8F7    ; Alphabetic # Lo   [6] DEVANAGARI SIGN SPACING CANDRABINDU..DEVANAGARI SIGN CANDRABINDU AVAGRAHA",
text! "A8FB          ; Alphabetic # Lo       DEVANAGARI HEADSTROKE",
text! "A8FD..A8FE    ; Alphabetic # Lo   [2] DEVANAGARI JAIN OM..DEVANAGARI LETTER AY",
text! "A8FF          ; Alphabetic # Mn       DEVANAGARI VOWEL SIGN AY",
text! "A90A..A925    ; Alphabetic # Lo  [28] KAYAH LI LETTER KA..KAYAH LI LETTER OO",
text! "A926..A92A    ; Alphabetic # Mn   [5] KAYAH LI VOWEL UE..KAYAH LI VOWEL O",
text! "A930..A946    ; Alphabetic # Lo  [23] REJANG LETTER KA..REJANG LETTER A",
text! "A947..A951    ; Alphabetic # Mn  [11] REJANG VOWEL SIGN I..REJANG CONSONANT SIGN R",
text! "A952          ; Alphabetic # Mc       REJANG CONSONANT SIGN H",
text! "A960..A97C    ; Alphabetic # Lo  [29] HANGUL CHOSEONG TIKEUT-MIEUM..HANGUL CHOSEONG SSANGYEORINHIEUH",
text! "A980..A982    ; Alphabetic # Mn   [3] JAVANESE SIGN PANYANGGA..JAVANESE SIGN LAYAR",
text! "A983          ; Alphabetic # Mc       JAVANESE SIGN WIGNYAN",
text! "A984..A9B2    ; Alphabetic # Lo  [47] JAVANESE LETTER A..JAVANESE LETTER HA",
text! "A9B4..A9B5    ; Alphabetic # Mc   [2] JAVANESE VOWEL SIGN TARUNG..JAVANESE VOWEL SIGN TOLONG",
text! "A9B6..A9B9    ; Alphabetic # Mn   [4] JAVANESE VOWEL SIGN WULU..JAVANESE VOWEL SIGN SUKU MENDUT",
text! "A9BA..A9BB    ; Alphabetic # Mc   [2] JAVANESE VOWEL SIGN TALING..JAVANESE VOWEL SIGN DIRGA MURE",
text! "A9BC..A9BD    ; Alphabetic # Mn   [2] JAVANESE VOWEL SIGN PEPET..JAVANESE CONSONANT SIGN KERET",
text! "A9BE..A9BF    ; Alphabetic # Mc   [2] JAVANESE CONSONANT SIGN PENGKAL..JAVANESE CONSONANT SIGN CAKRA",
text! "A9CF          ; Alphabetic # Lm       JAVANESE PANGRANGKEP",
text! "A9E0..A9E4    ; Alphabetic # Lo   [5] MYANMAR LETTER SHAN GHA..MYANMAR LETTER SHAN BHA",
text! "A9E5          ; Alphabetic # Mn       MYANMAR SIGN SHAN SAW",
text! "A9E6          ; Alphabetic # Lm       MYANMAR MODIFIER LETTER SHAN REDUPLICATION",
text! "A9E7..A9EF    ; Alphabetic # Lo   [9] MYANMAR LETTER TAI LAING NYA..MYANMAR LETTER TAI LAING NNA",
text! "A9FA..A9FE    ; Alphabetic # Lo   [5] MYANMAR LETTER TAI LAING LLA..MYANMAR LETTER TAI LAING BHA",
text! "AA00..AA28    ; Alphabetic # Lo  [41] CHAM LETTER A..CHAM LETTER HA",
text! "AA29..AA2E    ; Alphabetic # Mn   [6] CHAM VOWEL SIGN AA..CHAM VOWEL SIGN OE",
text! "AA2F..AA30    ; Alphabetic # Mc   [2] CHAM VOWEL SIGN O..CHAM VOWEL SIGN AI",
text! "AA31..AA32    ; Alphabetic # Mn   [2] CHAM VOWEL SIGN AU..CHAM VOWEL SIGN UE",
text! "AA33..AA34    ; Alphabetic # Mc   [2] CHAM CONSONANT SIGN YA..CHAM CONSONANT SIGN RA",
text! "AA35..AA36    ; Alphabetic # Mn   [2] CHAM CONSONANT SIGN LA..CHAM CONSONANT SIGN WA",
text! "AA40..AA42    ; Alphabetic # Lo   [3] CHAM LETTER FINAL K..CHAM LETTER FINAL NG",
text! "AA43          ; Alphabetic # Mn       CHAM CONSONANT SIGN FINAL NG",
text! "AA44..AA4B    ; Alphabetic # Lo   [8] CHAM LETTER FINAL CH..CHAM LETTER FINAL SS",
text! "AA4C          ; Alphabetic # Mn       CHAM CONSONANT SIGN FINAL M",
text! "AA4D          ; Alphabetic # Mc       CHAM CONSONANT SIGN FINAL H",
text! "AA60..AA6F    ; Alphabetic # Lo  [16] MYANMAR LETTER KHAMTI GA..MYANMAR LETTER KHAMTI FA",
text! "AA70          ; Alphabetic # Lm       MYANMAR MODIFIER LETTER KHAMTI REDUPLICATION",
text! "AA71..AA76    ; Alphabetic # Lo   [6] MYANMAR LETTER KHAMTI XA..MYANMAR LOGOGRAM KHAMTI HM",
text! "AA7A          ; Alphabetic # Lo       MYANMAR LETTER AITON RA"]

/-- lines 897-960 -/
def derivedCore14 : List Nat := [
text! "AA7B          ; Alphabetic # Mc       MYANMAR SIGN PAO KAREN TONE",
text! "AA7C          ; Alphabetic # Mn       MYANMAR SIGN TAI LAING TONE-2",
text! "AA7D          ; Alphabetic # Mc       MYANMAR SIGN TAI LAING TONE-5",
text! "AA7E..AAAF    ; Alphabetic # Lo  [50] MYANMAR LETTER SHWE PALAUNG CHA..TAI VIET LETTER HIGH O",
text! "AAB0          ; Alphabetic # Mn       TAI VIET MAI KANG",
text! "AAB1          ; Alphabetic # Lo       TAI VIET VOWEL AA",
text! "AAB2..AAB4    ; Alphabetic # Mn   [3] TAI VIET VOWEL I..TAI VIET VOWEL U",
text! "AAB5..AAB6    ; Alphabetic # Lo   [2] TAI VIET VOWEL E..TAI VIET VOWEL O",
text! "AAB7..AAB8    ; Alphabetic # Mn   [2] TAI VIET MAI KHIT..TAI VIET VOWEL IA",
text! "AAB9..AABD    ; Alphabetic # Lo   [5] TAI VIET VOWEL UEA..TAI VIET VOWEL AN",
text! "AABE          ; Alphabetic # Mn       TAI VIET VOWEL AM",
text! "AAC0          ; Alphabetic # Lo       TAI VIET TONE MAI NUENG",
text! "AAC2          ; Alphabetic # Lo       TAI VIET TONE MAI SONG",
text! "AADB..AADC    ; Alphabetic # Lo   [2] TAI VIET SYMBOL KON..TAI VIET SYMBOL NUENG",
text! "AADD          ; Alphabetic # Lm       TAI VIET SYMBOL SAM",
text! "AAE0..AAEA    ; Alphabetic # Lo  [11] MEETEI MAYEK LETTER E..MEETEI MAYEK LETTER SSA",
text! "AAEB          ; Alphabetic # Mc       MEETEI MAYEK VOWEL SIGN II",
text! "AAEC..AAED    ; Alphabetic # Mn   [2] MEETEI MAYEK VOWEL SIGN UU..MEETEI MAYEK VOWEL SIGN AAI",
text! "AAEE..AAEF    ; Alphabetic # Mc   [2] MEETEI MAYEK VOWEL SIGN AU..MEETEI MAYEK VOWEL SIGN AAU",
text! "AAF2          ; Alphabetic # Lo       MEETEI MAYEK ANJI",
text! "AAF3..AAF4    ; Alphabetic # Lm   [2] MEETEI MAYEK SYLLABLE REPETITION MARK..MEETEI MAYEK WORD REPETITION MARK",
text! "AAF5          ; Alphabetic # Mc       MEETEI MAYEK VOWEL SIGN VISARGA",
text! "AB01..AB06    ; Alphabetic # Lo   [6] ETHIOPIC SYLLABLE TTHU..ETHIOPIC SYLLABLE TTHO",
text! "AB09..AB0E    ; Alphabetic # Lo   [6] ETHIOPIC SYLLABLE DDHU..ETHIOPIC SYLLABLE DDHO",
text! "AB11..AB16    ; Alphabetic # Lo   [6] ETHIOPIC SYLLABLE DZU..ETHIOPIC SYLLABLE DZO",
text! "AB20..AB26    ; Alphabetic # Lo   [7] ETHIOPIC SYLLABLE CCHHA..ETHIOPIC SYLLABLE CCHHO",
text! "AB28..AB2E    ; Alphabetic # Lo   [7] ETHIOPIC SYLLABLE BBA..ETHIOPIC SYLLABLE BBO",
text! "AB30..AB5A    ; Alphabetic # L&  [43] LATIN SMALL LETTER BARRED ALPHA..LATIN SMALL LETTER Y WITH SHORT RIGHT LEG",
text! "AB5C..AB5F    ; Alphabetic # Lm   [4] MODIFIER LETTER SMALL HENG..MODIFIER LETTER SMALL U WITH LEFT HOOK",
text! "AB60..AB68    ; Alphabetic # L&   [9] LATIN SMALL LETTER SAKHA YAT..LATIN SMALL LETTER TURNED R WITH MIDDLE TILDE",
text! "AB69          ; Alphabetic # Lm       MODIFIER LETTER SMALL TURNED W",
text! "AB70..ABBF    ; Alphabetic # L&  [80] CHEROKEE SMALL LETTER A..CHEROKEE SMALL LETTER YA",
text! "ABC0..ABE2    ; Alphabetic # Lo  [35] MEETEI MAYEK LETTER KOK..MEETEI MAYEK LETTER I LONSUM",
text! "ABE3..ABE4    ; Alphabetic # Mc   [2] MEETEI MAYEK VOWEL SIGN ONAP..MEETEI MAYEK VOWEL SIGN INAP",
text! "ABE5          ; Alphabetic # Mn       MEETEI MAYEK VOWEL SIGN ANAP",
text! "ABE6..ABE7    ; Alphabetic # Mc   [2] MEETEI MAYEK VOWEL SIGN YENAP..MEETEI MAYEK VOWEL SIGN SOUNAP",
text! "ABE8          ; Alphabetic # Mn       MEETEI MAYEK VOWEL SIGN UNAP",
text! "ABE9..ABEA    ; Alphabetic # Mc   [2] MEETEI MAYEK VOWEL SIGN CHEINAP..MEETEI MAYEK VOWEL SIGN NUNG",
text! "AC00..D7A3    ; Alphabetic # Lo [11172] HANGUL SYLLABLE GA..HANGUL SYLLABLE HIH",
text! "D7B0..D7C6    ; Alphabetic # Lo  [23] HANGUL JUNGSEONG O-YEO..HANGUL JUNGSEONG ARAEA-E",
text! "D7CB..D7FB    ; Alphabetic # Lo  [49] HANGUL JONGSEONG NIEUN-RIEUL..HANGUL JONGSEONG PHIEUPH-THIEUTH",
text! "F900..FA6D    ; Alphabetic # Lo [366] CJK COMPATIBILITY IDEOGRAPH-F900..CJK COMPATIBILITY IDEOGRAPH-FA6D",
text! "FA70..FAD9    ; Alphabetic # Lo [106] CJK COMPATIBILITY IDEOGRAPH-FA70..CJK COMPATIBILITY IDEOGRAPH-FAD9",
text! "FB00..FB06    ; Alphabetic # L&   [7] LATIN SMALL LIGATURE FF..LATIN SMALL LIGATURE ST",
text! "FB13..FB17    ; Alphabetic # L&   [5] ARMENIAN SMALL LIGATURE MEN NOW..ARMENIAN SMALL LIGATURE MEN XEH",
text! "FB1D          ; Alphabetic # Lo       HEBREW LETTER YOD WITH HIRIQ",
text! "FB1E          ; Alphabetic # Mn       HEBREW POINT JUDEO-SPANISH VARIKA",
text! "FB1F..FB28    ; Alphabetic # Lo  [10] HEBREW LIGATURE YIDDISH YOD YOD PATAH..HEBREW LETTER WIDE TAV",
text! "FB2A..FB36    ; Alphabetic # Lo  [13] HEBREW LETTER SHIN WITH SHIN DOT..HEBREW LETTER ZAYIN WITH DAGESH",
text! "FB38..FB3C    ; Alphabetic # Lo   [5] HEBREW LETTER TET WITH DAGESH..HEBREW LETTER LAMED WITH DAGESH",
text! "FB3E          ; Alphabetic # Lo       HEBREW LETTER MEM WITH DAGESH",
text! "FB40..FB41    ; Alphabetic # Lo   [2] HEBREW LETTER NUN WITH DAGESH..HEBREW LETTER SAMEKH WITH DAGESH",
text! "FB43..FB44    ; Alphabetic # Lo   [2] HEBREW LETTER FINAL PE WITH DAGESH..HEBREW LETTER PE WITH DAGESH",
text! "FB46..FBB1    ; Alphabetic # Lo [108] HEBREW LETTER TSADI WITH DAGESH..ARABIC LETTER YEH BARREE WITH HAMZA ABOVE FINAL FORM",
text! "FBD3..FD3D    ; Alphabetic # Lo [363] ARABIC LETTER NG ISOLATED FORM..ARABIC LIGATURE ALEF WITH FATHATAN ISOLATED FORM",
text! "FD50..FD8F    ; Alphabetic # Lo  [64] ARABIC LIGATURE TEH WITH JEEM WITH MEEM INITIAL FORM..ARABIC LIGATURE MEEM WITH KHAH WITH MEEM INITIAL FORM",
text! "FD92..FDC7    ; Alphabetic # Lo  [54] ARABIC LIGATURE MEEM WITH JEEM WITH KHAH INITIAL FORM..ARABIC LIGATURE NOON WITH JEEM WITH YEH FINAL FORM",
text! "FDF0..FDFB    ; Alphabetic # Lo  [12] ARABIC LIGATURE SALLA USED AS KORANIC STOP SIGN ISOLATED FORM..ARABIC LIGATURE JALLAJALALOUHOU",
text! "FE70..FE74    ; Alphabetic # Lo   [5] ARABIC FATHATAN ISOLATED FORM..ARABIC KASRATAN ISOLATED FORM",
text! "FE76..FEFC    ; Alphabetic # Lo [135] ARABIC FATHA ISOLATED FORM..ARABIC LIGATURE LAM WITH ALEF FINAL FORM",
text! "FF21..FF3A    ; Alphabetic # L&  [26] FULLWIDTH LATIN CAPITAL LETTER A..FULLWIDTH LATIN CAPITAL LETTER Z",
text! "FF41..FF5A    ; Alphabetic # L&  [26] FULLWIDTH LATIN SMALL LETTER A..FULLWIDTH LATIN SMALL LETTER Z",
text! "FF66..FF6F    ; Alphabetic # Lo  [10] HALFWIDTH KATAKANA LETTER WO..HALFWIDTH KATAKANA LETTER SMALL TU",
text! "FF70          ; Alphabetic # Lm       HALFWIDTH KATAKANA-HIRAGANA PROLONGED SOUND MARK"]

/-- lines 961-1024 -/
def derivedCore15 : List Nat := [
text! "FF71..FF9D    ; Alphabetic # Lo  [45] HALFWIDTH KATAKANA LETTER A..HALFWIDTH KATAKANA LETTER N",
text! "FF9E..FF9F    ; Alphabetic # Lm   [2] HALFWIDTH KATAKANA VOICED SOUND MARK..HALFWIDTH KATAKANA SEMI-VOICED SOUND MARK",
text! "FFA0..FFBE    ; Alphabetic # Lo  [31] HALFWIDTH HANGUL FILLER..HALFWIDTH HANGUL LETTER HIEUH",
text! "FFC2..FFC7    ; Alphabetic # Lo   [6] HALFWIDTH HANGUL LETTER A..HALFWIDTH HANGUL LETTER E",
text! "FFCA..FFCF    ; Alphabetic # Lo   [6] HALFWIDTH HANGUL LETTER YEO..HALFWIDTH HANGUL LETTER OE",
text! "FFD2..FFD7    ; Alphabetic # Lo   [6] HALFWIDTH HANGUL LETTER YO..HALFWIDTH HANGUL LETTER YU",
text! "FFDA..FFDC    ; Alphabetic # Lo   [3] HALFWIDTH HANGUL LETTER EU..HALFWIDTH HANGUL LETTER I",
text! "10000..1000B  ; Alphabetic # Lo  [12] LINEAR B SYLLABLE B008 A..LINEAR B SYLLABLE B046 JE",
text! "1000D..10026  ; Alphabetic # Lo  [26] LINEAR B SYLLABLE B036 JO..LINEAR B SYLLABLE B032 QO",
text! "10028..1003A  ; Alphabetic # Lo  [19] LINEAR B SYLLABLE B060 RA..LINEAR B SYLLABLE B042 WO",
text! "1003C..1003D  ; Alphabetic # Lo   [2] LINEAR B SYLLABLE B017 ZA..LINEAR B SYLLABLE B074 ZE",
text! "1003F..1004D  ; Alphabetic # Lo  [15] LINEAR B SYLLABLE B020 ZO..LINEAR B SYLLABLE B091 TWO",
text! "10050..1005D  ; Alphabetic # Lo  [14] LINEAR B SYMBOL B018..LINEAR B SYMBOL B089",
text! "10080..100FA  ; Alphabetic # Lo [123] LINEAR B IDEOGRAM B100 MAN..LINEAR B IDEOGRAM VESSEL B305",
text! "10140..10174  ; Alphabetic # Nl  [53] GREEK ACROPHONIC ATTIC ONE QUARTER..GREEK ACROPHONIC STRATIAN FIFTY MNAS",
text! "10280..1029C  ; Alphabetic # Lo  [29] LYCIAN LETTER A..LYCIAN LETTER X",
text! "102A0..102D0  ; Alphabetic # Lo  [49] CARIAN LETTER A..CARIAN LETTER UUU3",
text! "10300..1031F  ; Alphabetic # Lo  [32] OLD ITALIC LETTER A..OLD ITALIC LETTER ESS",
text! "1032D..10340  ; Alphabetic # Lo  [20] OLD ITALIC LETTER YE..GOTHIC LETTER PAIRTHRA",
text! "10341         ; Alphabetic # Nl       GOTHIC LETTER NINETY",
text! "10342..10349  ; Alphabetic # Lo   [8] GOTHIC LETTER RAIDA..GOTHIC LETTER OTHAL",
text! "1034A         ; Alphabetic # Nl       GOTHIC LETTER NINE HUNDRED",
text! "10350..10375  ; Alphabetic # Lo  [38] OLD PERMIC LETTER AN..OLD PERMIC LETTER IA",
text! "10376..1037A  ; Alphabetic # Mn   [5] COMBINING OLD PERMIC LETTER AN..COMBINING OLD PERMIC LETTER SII",
text! "10380..1039D  ; Alphabetic # Lo  [30] UGARITIC LETTER ALPA..UGARITIC LETTER SSU",
text! "103A0..103C3  ; Alphabetic # Lo  [36] OLD PERSIAN SIGN A..OLD PERSIAN SIGN HA",
text! "103C8..103CF  ; Alphabetic # Lo   [8] OLD PERSIAN SIGN AURAMAZDAA..OLD PERSIAN SIGN BUUMISH",
text! "103D1..103D5  ; Alphabetic # Nl   [5] OLD PERSIAN NUMBER ONE..OLD PERSIAN NUMBER HUNDRED",
text! "10400..1044F  ; Alphabetic # L&  [80] DESERET CAPITAL LETTER LONG I..DESERET SMALL LETTER EW",
text! "10450..1049D  ; Alphabetic # Lo  [78] SHAVIAN LETTER PEEP..OSMANYA LETTER OO",
text! "104B0..104D3  ; Alphabetic # L&  [36] OSAGE CAPITAL LETTER A..OSAGE CAPITAL LETTER ZHA",
text! "104D8..104FB  ; Alphabetic # L&  [36] OSAGE SMALL LETTER A..OSAGE SMALL LETTER ZHA",
text! "10500..10527  ; Alphabetic # Lo  [40] ELBASAN LETTER A..ELBASAN LETTER KHE",
text! "10530..10563  ; Alphabetic # Lo  [52] CAUCASIAN ALBANIAN LETTER ALT..CAUCASIAN ALBANIAN LETTER KIW",
text! "10570..1057A  ; Alphabetic # L&  [11] VITHKUQI CAPITAL LETTER A..VITHKUQI CAPITAL LETTER GA",
text! "1057C..1058A  ; Alphabetic # L&  [15] VITHKUQI CAPITAL LETTER HA..VITHKUQI CAPITAL LETTER RE",
text! "1058C..10592  ; Alphabetic # L&   [7] VITHKUQI CAPITAL LETTER SE..VITHKUQI CAPITAL LETTER XE",
text! "10594..10595  ; Alphabetic # L&   [2] VITHKUQI CAPITAL LETTER Y..VITHKUQI CAPITAL LETTER ZE",
text! "10597..105A1  ; Alphabetic # L&  [11] VITHKUQI SMALL LETTER A..VITHKUQI SMALL LETTER GA",
text! "105A3..105B1  ; Alphabetic # L&  [15] VITHKUQI SMALL LETTER HA..VITHKUQI SMALL LETTER RE",
text! "105B3..105B9  ; Alphabetic # L&   [7] VITHKUQI SMALL LETTER SE..VITHKUQI SMALL LETTER XE",
text! "105BB..105BC  ; Alphabetic # L&   [2] VITHKUQI SMALL LETTER Y..VITHKUQI SMALL LETTER ZE",
text! "105C0..105F3  ; Alphabetic # Lo  [52] TODHRI LETTER A..TODHRI LETTER OO",
text! "10600..10736  ; Alphabetic # Lo [311] LINEAR A SIGN AB001..LINEAR A SIGN A664",
text! "10740..10755  ; Alphabetic # Lo  [22] LINEAR A SIGN A701 A..LINEAR A SIGN A732 JE",
text! "10760..10767  ; Alphabetic # Lo   [8] LINEAR A SIGN A800..LINEAR A SIGN A807",
text! "10780..10785  ; Alphabetic # Lm   [6] MODIFIER LETTER SMALL CAPITAL AA..MODIFIER LETTER SMALL B WITH HOOK",
text! "10787..107B0  ; Alphabetic # Lm  [42] MODIFIER LETTER SMALL DZ DIGRAPH..MODIFIER LETTER SMALL V WITH RIGHT HOOK",
text! "107B2..107BA  ; Alphabetic # Lm   [9] MODIFIER LETTER SMALL CAPITAL Y..MODIFIER LETTER SMALL S WITH CURL",
text! "10800..10805  ; Alphabetic # Lo   [6] CYPRIOT SYLLABLE A..CYPRIOT SYLLABLE JA",
text! "10808         ; Alphabetic # Lo       CYPRIOT SYLLABLE JO",
text! "1080A..10835  ; Alphabetic # Lo  [44] CYPRIOT SYLLABLE KA..CYPRIOT SYLLABLE WO",
text! "10837..10838  ; Alphabetic # Lo   [2] CYPRIOT SYLLABLE XA..CYPRIOT SYLLABLE XE",
text! "1083C         ; Alphabetic # Lo       CYPRIOT SYLLABLE ZA",
text! "1083F..10855  ; Alphabetic # Lo  [23] CYPRIOT SYLLABLE ZO..IMPERIAL ARAMAIC LETTER TAW",
text! "10860..10876  ; Alphabetic # Lo  [23] PALMYRENE LETTER ALEPH..PALMYRENE LETTER TAW",
text! "10880..1089E  ; Alphabetic # Lo  [31] NABATAEAN LETTER FINAL ALEPH..NABATAEAN LETTER TAW",
text! "108E0..108F2  ; Alphabetic # Lo  [19] HATRAN LETTER ALEPH..HATRAN LETTER QOPH",
text! "108F4..108F5  ; Alphabetic # Lo   [2] HATRAN LETTER SHIN..HATRAN LETTER TAW",
text! "10900..10915  ; Alphabetic # Lo  [22] PHOENICIAN LETTER ALF..PHOENICIAN LETTER TAU",
text! "10920..10939  ; Alphabetic # Lo  [26] LYDIAN LETTER A..LYDIAN LETTER C",
text! "10940..10959  ; Alphabetic # Lo  [26] SIDETIC LETTER N01..SIDETIC LETTER N26",
text! "10980..109B7  ; Alphabetic # Lo  [56] MEROITIC HIEROGLYPHIC LETTER A..MEROITIC CURSIVE LETTER DA",
text! "109BE..109BF  ; Alphabetic # Lo   [2] MEROITIC CURSIVE LOGOGRAM RMT..MEROITIC CURSIVE LOGOGRAM IMN"]

/-- lines 1025-1088 -/
def derivedCore16 : List Nat := [
text! "10A00         ; Alphabetic # Lo       KHAROSHTHI LETTER A",
text! "10A01..10A03  ; Alphabetic # Mn   [3] KHAROSHTHI VOWEL SIGN I..KHAROSHTHI VOWEL SIGN VOCALIC R",
text! "10A05..10A06  ; Alphabetic # Mn   [2] KHAROSHTHI VOWEL SIGN E..KHAROSHTHI VOWEL SIGN O",
text! "10A0C..10A0F  ; Alphabetic # Mn   [4] KHAROSHTHI VOWEL LENGTH MARK..KHAROSHTHI SIGN VISARGA",
text! "10A10..10A13  ; Alphabetic # Lo   [4] KHAROSHTHI LETTER KA..KHAROSHTHI LETTER GHA",
text! "10A15..10A17  ; Alphabetic # Lo   [3] KHAROSHTHI LETTER CA..KHAROSHTHI LETTER JA",
text! "10A19..10A35  ; Alphabetic # Lo  [29] KHAROSHTHI LETTER NYA..KHAROSHTHI LETTER VHA",
text! "10A60..10A7C  ; Alphabetic # Lo  [29] OLD SOUTH ARABIAN LETTER HE..OLD SOUTH ARABIAN LETTER THETH",
text! "10A80..10A9C  ; Alphabetic # Lo  [29] OLD NORTH ARABIAN LETTER HEH..OLD NORTH ARABIAN LETTER ZAH",
text! "10AC0..10AC7  ; Alphabetic # Lo   [8] MANICHAEAN LETTER ALEPH..MANICHAEAN LETTER WAW",
text! "10AC9..10AE4  ; Alphabetic # Lo  [28] MANICHAEAN LETTER ZAYIN..MANICHAEAN LETTER TAW",
text! "10B00..10B35  ; Alphabetic # Lo  [54] AVESTAN LETTER A..AVESTAN LETTER HE",
text! "10B40..10B55  ; Alphabetic # Lo  [22] INSCRIPTIONAL PARTHIAN LETTER ALEPH..INSCRIPTIONAL PARTHIAN LETTER TAW",
text! "10B60..10B72  ; Alphabetic # Lo  [19] INSCRIPTIONAL PAHLAVI LETTER ALEPH..INSCRIPTIONAL PAHLAVI LETTER TAW",
text! "10B80..10B91  ; Alphabetic # Lo  [18] PSALTER PAHLAVI LETTER ALEPH..PSALTER PAHLAVI LETTER TAW",
text! "10C00..10C48  ; Alphabetic # Lo  [73] OLD TURKIC LETTER ORKHON A..OLD TURKIC LETTER ORKHON BASH",
text! "10C80..10CB2  ; Alphabetic # L&  [51] OLD HUNGARIAN CAPITAL LETTER A..OLD HUNGARIAN CAPITAL LETTER US",
text! "10CC0..10CF2  ; Alphabetic # L&  [51] OLD HUNGARIAN SMALL LETTER A..OLD HUNGARIAN SMALL LETTER US",
text! "10D00..10D23  ; Alphabetic # Lo  [36] HANIFI ROHINGYA LETTER A..HANIFI ROHINGYA MARK NA KHONNA",
text! "10D24..10D27  ; Alphabetic # Mn   [4] HANIFI ROHINGYA SIGN HARBAHAY..HANIFI ROHINGYA SIGN TASSI",
text! "10D4A..10D4D  ; Alphabetic # Lo   [4] GARAY VOWEL SIGN A..GARAY VOWEL SIGN EE",
text! "10D4E         ; Alphabetic # Lm       GARAY VOWEL LENGTH MARK",
text! "10D4F         ; Alphabetic # Lo       GARAY SUKUN",
text! "10D50..10D65  ; Alphabetic # L&  [22] GARAY CAPITAL LETTER A..GARAY CAPITAL LETTER OLD NA",
text! "10D69         ; Alphabetic # Mn       GARAY VOWEL SIGN E",
text! "10D6F         ; Alphabetic # Lm       GARAY REDUPLICATION MARK",
text! "10D70..10D85  ; Alphabetic # L&  [22] GARAY SMALL LETTER A..GARAY SMALL LETTER OLD NA",
text! "10E80..10EA9  ; Alphabetic # Lo  [42] YEZIDI LETTER ELIF..YEZIDI LETTER ET",
text! "10EAB..10EAC  ; Alphabetic # Mn   [2] YEZIDI COMBINING HAMZA MARK..YEZIDI COMBINING MADDA MARK",
text! "10EB0..10EB1  ; Alphabetic # Lo   [2] YEZIDI LETTER LAM WITH DOT ABOVE..YEZIDI LETTER YOT WITH CIRCUMFLEX ABOVE",
text! "10EC2..10EC4  ; Alphabetic # Lo   [3] ARABIC LETTER DAL WITH TWO DOTS VERTICALLY BELOW..ARABIC LETTER KAF WITH TWO DOTS VERTICALLY BELOW",
text! "10EC5         ; Alphabetic # Lm       ARABIC SMALL YEH BARREE WITH TWO DOTS BELOW",
text! "10EC6..10EC7  ; Alphabetic # Lo   [2] ARABIC LETTER THIN NOON..ARABIC LETTER YEH WITH FOUR DOTS BELOW",
text! "10EFA..10EFC  ; Alphabetic # Mn   [3] ARABIC DOUBLE VERTICAL BAR BELOW..ARABIC COMBINING ALEF OVERLAY",
text! "10F00..10F1C  ; Alphabetic # Lo  [29] OLD SOGDIAN LETTER ALEPH..OLD SOGDIAN LETTER FINAL TAW WITH VERTICAL TAIL",
text! "10F27         ; Alphabetic # Lo       OLD SOGDIAN LIGATURE AYIN-DALETH",
text! "10F30..10F45  ; Alphabetic # Lo  [22] SOGDIAN LETTER ALEPH..SOGDIAN INDEPENDENT SHIN",
text! "10F70..10F81  ; Alphabetic # Lo  [18] OLD UYGHUR LETTER ALEPH..OLD UYGHUR LETTER LESH",
text! "10FB0..10FC4  ; Alphabetic # Lo  [21] CHORASMIAN LETTER ALEPH..CHORASMIAN LETTER TAW",
text! "10FE0..10FF6  ; Alphabetic # Lo  [23] ELYMAIC LETTER ALEPH..ELYMAIC LIGATURE ZAYIN-YODH",
text! "11000         ; Alphabetic # Mc       BRAHMI SIGN CANDRABINDU",
text! "11001         ; Alphabetic # Mn       BRAHMI SIGN ANUSVARA",
text! "11002         ; Alphabetic # Mc       BRAHMI SIGN VISARGA",
text! "11003..11037  ; Alphabetic # Lo  [53] BRAHMI SIGN JIHVAMULIYA..BRAHMI LETTER OLD TAMIL NNNA",
text! "11038..11045  ; Alphabetic # Mn  [14] BRAHMI VOWEL SIGN AA..BRAHMI VOWEL SIGN AU",
text! "11071..11072  ; Alphabetic # Lo   [2] BRAHMI LETTER OLD TAMIL SHORT E..BRAHMI LETTER OLD TAMIL SHORT O",
text! "11073..11074  ; Alphabetic # Mn   [2] BRAHMI VOWEL SIGN OLD TAMIL SHORT E..BRAHMI VOWEL SIGN OLD TAMIL SHORT O",
text! "11075         ; Alphabetic # Lo       BRAHMI LETTER OLD TAMIL LLA",
text! "11080..11081  ; Alphabetic # Mn   [2] KAITHI SIGN CANDRABINDU..KAITHI SIGN ANUSVARA",
text! "11082         ; Alphabetic # Mc       KAITHI SIGN VISARGA",
text! "11083..110AF  ; Alphabetic # Lo  [45] KAITHI LETTER A..KAITHI LETTER HA",
text! "110B0..110B2  ; Alphabetic # Mc   [3] KAITHI VOWEL SIGN AA..KAITHI VOWEL SIGN II",
text! "110B3..110B6  ; Alphabetic # Mn   [4] KAITHI VOWEL SIGN U..KAITHI VOWEL SIGN AI",
text! "110B7..110B8  ; Alphabetic # Mc   [2] KAITHI VOWEL SIGN O..KAITHI VOWEL SIGN AU",
text! "110C2         ; Alphabetic # Mn       KAITHI VOWEL SIGN VOCALIC R",
text! "110D0..110E8  ; Alphabetic # Lo  [25] SORA SOMPENG LETTER SAH..SORA SOMPENG LETTER MAE",
text! "11100..11102  ; Alphabetic # Mn   [3] CHAKMA SIGN CANDRABINDU..CHAKMA SIGN VISARGA",
text! "11103..11126  ; Alphabetic # Lo  [36] CHAKMA LETTER AA..CHAKMA LETTER HAA",
text! "11127..1112B  ; Alphabetic # Mn   [5] CHAKMA VOWEL SIGN A..CHAKMA VOWEL SIGN UU",
text! "1112C         ; Alphabetic # Mc       CHAKMA VOWEL SIGN E",
text! "1112D..11132  ; Alphabetic # Mn   [6] CHAKMA VOWEL SIGN AI..CHAKMA AU MARK",
text! "11144         ; Alphabetic # Lo       CHAKMA LETTER LHAA",
text! "11145..11146  ; Alphabetic # Mc   [2] CHAKMA VOWEL SIGN AA..CHAKMA VOWEL SIGN EI",
text! "11147         ; Alphabetic # Lo       CHAKMA LETTER VAA"]

/-- lines 1089-1152 -/
def derivedCore17 : List Nat := [
text! "11150..11172  ; Alphabetic # Lo  [35] MAHAJANI LETTER A..MAHAJANI LETTER RRA",
text! "11176         ; Alphabetic # Lo       MAHAJANI LIGATURE SHRI",
text! "11180..11181  ; Alphabetic # Mn   [2] SHARADA SIGN CANDRABINDU..SHARADA SIGN ANUSVARA",
text! "11182         ; Alphabetic # Mc       SHARADA SIGN VISARGA",
text! "11183..111B2  ; Alphabetic # Lo  [48] SHARADA LETTER A..SHARADA LETTER HA",
text! "111B3..111B5  ; Alphabetic # Mc   [3] SHARADA VOWEL SIGN AA..SHARADA VOWEL SIGN II",
text! "111B6..111BE  ; Alphabetic # Mn   [9] SHARADA VOWEL SIGN U..SHARADA VOWEL SIGN O",
text! "111BF         ; Alphabetic # Mc       SHARADA VOWEL SIGN AU",
text! "111C1..111C4  ; Alphabetic # Lo   [4] SHARADA SIGN AVAGRAHA..SHARADA OM",
text! "111CE         ; Alphabetic # Mc       SHARADA VOWEL SIGN PRISHTHAMATRA E",
text! "111CF         ; Alphabetic # Mn       SHARADA SIGN INVERTED CANDRABINDU",
text! "111DA         ; Alphabetic # Lo       SHARADA EKAM",
text! "111DC         ; Alphabetic # Lo       SHARADA HEADSTROKE",
text! "11200..11211  ; Alphabetic # Lo  [18] KHOJKI LETTER A..KHOJKI LETTER JJA",
text! "11213..1122B  ; Alphabetic # Lo  [25] KHOJKI LETTER NYA..KHOJKI LETTER LLA",
text! "1122C..1122E  ; Alphabetic # Mc   [3] KHOJKI VOWEL SIGN AA..KHOJKI VOWEL SIGN II",
text! "1122F..11231  ; Alphabetic # Mn   [3] KHOJKI VOWEL SIGN U..KHOJKI VOWEL SIGN AI",
text! "11232..11233  ; Alphabetic # Mc   [2] KHOJKI VOWEL SIGN O..KHOJKI VOWEL SIGN AU",
text! "11234         ; Alphabetic # Mn       KHOJKI SIGN ANUSVARA",
text! "11237         ; Alphabetic # Mn       KHOJKI SIGN SHADDA",
text! "1123E         ; Alphabetic # Mn       KHOJKI SIGN SUKUN",
text! "1123F..11240  ; Alphabetic # Lo   [2] KHOJKI LETTER QA..KHOJKI LETTER SHORT I",
text! "11241         ; Alphabetic # Mn       KHOJKI VOWEL SIGN VOCALIC R",
text! "11280..11286  ; Alphabetic # Lo   [7] MULTANI LETTER A..MULTANI LETTER GA",
text! "11288         ; Alphabetic # Lo       MULTANI LETTER GHA",
text! "1128A..1128D  ; Alphabetic # Lo   [4] MULTANI LETTER CA..MULTANI LETTER JJA",
text! "1128F..1129D  ; Alphabetic # Lo  [15] MULTANI LETTER NYA..MULTANI LETTER BA",
text! "1129F..112A8  ; Alphabetic # Lo  [10] MULTANI LETTER BHA..MULTANI LETTER RHA",
text! "112B0..112DE  ; Alphabetic # Lo  [47] KHUDAWADI LETTER A..KHUDAWADI LETTER HA",
text! "112DF         ; Alphabetic # Mn       KHUDAWADI SIGN ANUSVARA",
text! "112E0..112E2  ; Alphabetic # Mc   [3] KHUDAWADI VOWEL SIGN AA..KHUDAWADI VOWEL SIGN II",
text! "112E3..112E8  ; Alphabetic # Mn   [6] KHUDAWADI VOWEL SIGN U..KHUDAWADI VOWEL SIGN AU",
text! "11300..11301  ; Alphabetic # Mn   [2] GRANTHA SIGN COMBINING ANUSVARA ABOVE..GRANTHA SIGN CANDRABINDU",
text! "11302..11303  ; Alphabetic # Mc   [2] GRANTHA SIGN ANUSVARA..GRANTHA SIGN VISARGA",
text! "11305..1130C  ; Alphabetic # Lo   [8] GRANTHA LETTER A..GRANTHA LETTER VOCALIC L",
text! "1130F..11310  ; Alphabetic # Lo   [2] GRANTHA LETTER EE..GRANTHA LETTER AI",
text! "11313..11328  ; Alphabetic # Lo  [22] GRANTHA LETTER OO..GRANTHA LETTER NA",
text! "1132A..11330  ; Alphabetic # Lo   [7] GRANTHA LETTER PA..GRANTHA LETTER RA",
text! "11332..11333  ; Alphabetic # Lo   [2] GRANTHA LETTER LA..GRANTHA LETTER LLA",
text! "11335..11339  ; Alphabetic # Lo   [5] GRANTHA LETTER VA..GRANTHA LETTER HA",
text! "1133D         ; Alphabetic # Lo       GRANTHA SIGN AVAGRAHA",
text! "1133E..1133F  ; Alphabetic # Mc   [2] GRANTHA VOWEL SIGN AA..GRANTHA VOWEL SIGN I",
text! "11340         ; Alphabetic # Mn       GRANTHA VOWEL SIGN II",
text! "11341..11344  ; Alphabetic # Mc   [4] GRANTHA VOWEL SIGN U..GRANTHA VOWEL SIGN VOCALIC RR",
text! "11347..11348  ; Alphabetic # Mc   [2] GRANTHA VOWEL SIGN EE..GRANTHA VOWEL SIGN AI",
text! "1134B..1134C  ; Alphabetic # Mc   [2] GRANTHA VOWEL SIGN OO..GRANTHA VOWEL SIGN AU",
text! "11350         ; Alphabetic # Lo       GRANTHA OM",
text! "11357         ; Alphabetic # Mc       GRANTHA AU LENGTH MARK",
text! "1135D..11361  ; Alphabetic # Lo   [5] GRANTHA SIGN PLUTA..GRANTHA LETTER VOCALIC LL",
text! "11362..11363  ; Alphabetic # Mc   [2] GRANTHA VOWEL SIGN VOCALIC L..GRANTHA VOWEL SIGN VOCALIC LL",
text! "11380..11389  ; Alphabetic # Lo  [10] TULU-TIGALARI LETTER A..TULU-TIGALARI LETTER VOCALIC LL",
text! "1138B         ; Alphabetic # Lo       TULU-TIGALARI LETTER EE",
text! "1138E         ; Alphabetic # Lo       TULU-TIGALARI LETTER AI",
text! "11390..113B5  ; Alphabetic # Lo  [38] TULU-TIGALARI LETTER OO..TULU-TIGALARI LETTER LLLA",
text! "113B7         ; Alphabetic # Lo       TULU-TIGALARI SIGN AVAGRAHA",
text! "113B8..113BA  ; Alphabetic # Mc   [3] TULU-TIGALARI VOWEL SIGN AA..TULU-TIGALARI VOWEL SIGN II",
text! "113BB..113C0  ; Alphabetic # Mn   [6] TULU-TIGALARI VOWEL SIGN U..TULU-TIGALARI VOWEL SIGN VOCALIC LL",
text! "113C2         ; Alphabetic # Mc       TULU-TIGALARI VOWEL SIGN EE",
text! "113C5         ; Alphabetic # Mc       TULU-TIGALARI VOWEL SIGN AI",
text! "113C7..113CA  ; Alphabetic # Mc   [4] TULU-TIGALARI VOWEL SIGN OO..TULU-TIGALARI SIGN CANDRA ANUNASIKA",
text! "113CC..113CD  ; Alphabetic # Mc   [2] TULU-TIGALARI SIGN ANUSVARA..TULU-TIGALARI SIGN VISARGA",
text! "113D1         ; Alphabetic # Lo       TULU-TIGALARI REPHA",
text! "113D3         ; Alphabetic # Lo       TULU-TIGALARI SIGN PLUTA",
text! "11400..11434  ; Alphabetic # Lo  [53] NEWA LETTER A..NEWA LETTER HA"]

/-- lines 1153-1216 -/
def derivedCore18 : List Nat := [
text! "11435..11437  ; Alphabetic # Mc   [3] NEWA VOWEL SIGN AA..NEWA VOWEL SIGN II",
text! "11438..1143F  ; Alphabetic # Mn   [8] NEWA VOWEL SIGN U..NEWA VOWEL SIGN AI",
text! "11440..11441  ; Alphabetic # Mc   [2] NEWA VOWEL SIGN O..NEWA VOWEL SIGN AU",
text! "11443..11444  ; Alphabetic # Mn   [2] NEWA SIGN CANDRABINDU..NEWA SIGN ANUSVARA",
text! "11445         ; Alphabetic # Mc       NEWA SIGN VISARGA",
text! "11447..1144A  ; Alphabetic # Lo   [4] NEWA SIGN AVAGRAHA..NEWA SIDDHI",
text! "1145F..11461  ; Alphabetic # Lo   [3] NEWA LETTER VEDIC ANUSVARA..NEWA SIGN UPADHMANIYA",
text! "11480..114AF  ; Alphabetic # Lo  [48] TIRHUTA ANJI..TIRHUTA LETTER HA",
text! "114B0..114B2  ; Alphabetic # Mc   [3] TIRHUTA VOWEL SIGN AA..TIRHUTA VOWEL SIGN II",
text! "114B3..114B8  ; Alphabetic # Mn   [6] TIRHUTA VOWEL SIGN U..TIRHUTA VOWEL SIGN VOCALIC LL",
text! "114B9         ; Alphabetic # Mc       TIRHUTA VOWEL SIGN E",
text! "114BA         ; Alphabetic # Mn       TIRHUTA VOWEL SIGN SHORT E",
text! "114BB..114BE  ; Alphabetic # Mc   [4] TIRHUTA VOWEL SIGN AI..TIRHUTA VOWEL SIGN AU",
text! "114BF..114C0  ; Alphabetic # Mn   [2] TIRHUTA SIGN CANDRABINDU..TIRHUTA SIGN ANUSVARA",
text! "114C1         ; Alphabetic # Mc       TIRHUTA SIGN VISARGA",
text! "114C4..114C5  ; Alphabetic # Lo   [2] TIRHUTA SIGN AVAGRAHA..TIRHUTA GVANG",
text! "114C7         ; Alphabetic # Lo       TIRHUTA OM",
text! "11580..115AE  ; Alphabetic # Lo  [47] SIDDHAM LETTER A..SIDDHAM LETTER HA",
text! "115AF..115B1  ; Alphabetic # Mc   [3] SIDDHAM VOWEL SIGN AA..SIDDHAM VOWEL SIGN II",
text! "115B2..115B5  ; Alphabetic # Mn   [4] SIDDHAM VOWEL SIGN U..SIDDHAM VOWEL SIGN VOCALIC RR",
text! "115B8..115BB  ; Alphabetic # Mc   [4] SIDDHAM VOWEL SIGN E..SIDDHAM VOWEL SIGN AU",
text! "115BC..115BD  ; Alphabetic # Mn   [2] SIDDHAM SIGN CANDRABINDU..SIDDHAM SIGN ANUSVARA",
text! "115BE         ; Alphabetic # Mc       SIDDHAM SIGN VISARGA",
text! "115D8..115DB  ; Alphabetic # Lo   [4] SIDDHAM LETTER THREE-CIRCLE ALTERNATE I..SIDDHAM LETTER ALTERNATE U",
text! "115DC..115DD  ; Alphabetic # Mn   [2] SIDDHAM VOWEL SIGN ALTERNATE U..SIDDHAM VOWEL SIGN ALTERNATE UU",
text! "11600..1162F  ; Alphabetic # Lo  [48] MODI LETTER A..MODI LETTER LLA",
text! "11630..11632  ; Alphabetic # Mc   [3] MODI VOWEL SIGN AA..MODI VOWEL SIGN II",
text! "11633..1163A  ; Alphabetic # Mn   [8] MODI VOWEL SIGN U..MODI VOWEL SIGN AI",
text! "1163B..1163C  ; Alphabetic # Mc   [2] MODI VOWEL SIGN O..MODI VOWEL SIGN AU",
text! "1163D         ; Alphabetic # Mn       MODI SIGN ANUSVARA",
text! "1163E         ; Alphabetic # Mc       MODI SIGN VISARGA",
text! "11640         ; Alphabetic # Mn       MODI SIGN ARDHACANDRA",
text! "11644         ; Alphabetic # Lo       MODI SIGN HUVA",
text! "11680..116AA  ; Alphabetic # Lo  [43] TAKRI LETTER A..TAKRI LETTER RRA",
text! "116AB         ; Alphabetic # Mn       TAKRI SIGN ANUSVARA",
text! "116AC         ; Alphabetic # Mc       TAKRI SIGN VISARGA",
text! "116AD         ; Alphabetic # Mn       TAKRI VOWEL SIGN AA",
text! "116AE..116AF  ; Alphabetic # Mc   [2] TAKRI VOWEL SIGN I..TAKRI VOWEL SIGN II",
text! "116B0..116B5  ; Alphabetic # Mn   [6] TAKRI VOWEL SIGN U..TAKRI VOWEL SIGN AU",
text! "116B8         ; Alphabetic # Lo       TAKRI LETTER ARCHAIC KHA",
text! "11700..1171A  ; Alphabetic # Lo  [27] AHOM LETTER KA..AHOM LETTER ALTERNATE BA",
text! "1171D         ; Alphabetic # Mn       AHOM CONSONANT SIGN MEDIAL LA",
text! "1171E         ; Alphabetic # Mc       AHOM CONSONANT SIGN MEDIAL RA",
text! "1171F         ; Alphabetic # Mn       AHOM CONSONANT SIGN MEDIAL LIGATING RA",
text! "11720..11721  ; Alphabetic # Mc   [2] AHOM VOWEL SIGN A..AHOM VOWEL SIGN AA",
text! "11722..11725  ; Alphabetic # Mn   [4] AHOM VOWEL SIGN I..AHOM VOWEL SIGN UU",
text! "11726         ; Alphabetic # Mc       AHOM VOWEL SIGN E",
text! "11727..1172A  ; Alphabetic # Mn   [4] AHOM VOWEL SIGN AW..AHOM VOWEL SIGN AM",
text! "11740..11746  ; Alphabetic # Lo   [7] AHOM LETTER CA..AHOM LETTER LLA",
text! "11800..1182B  ; Alphabetic # Lo  [44] DOGRA LETTER A..DOGRA LETTER RRA",
text! "1182C..1182E  ; Alphabetic # Mc   [3] DOGRA VOWEL SIGN AA..DOGRA VOWEL SIGN II",
text! "1182F..11837  ; Alphabetic # Mn   [9] DOGRA VOWEL SIGN U..DOGRA SIGN ANUSVARA",
text! "11838         ; Alphabetic # Mc       DOGRA SIGN VISARGA",
text! "118A0..118DF  ; Alphabetic # L&  [64] WARANG CITI CAPITAL LETTER NGAA..WARANG CITI SMALL LETTER VIYO",
text! "118FF..11906  ; Alphabetic # Lo   [8] WARANG CITI OM..DIVES AKURU LETTER E",
text! "11909         ; Alphabetic # Lo       DIVES AKURU LETTER O",
text! "1190C..11913  ; Alphabetic # Lo   [8] DIVES AKURU LETTER KA..DIVES AKURU LETTER JA",
text! "11915..11916  ; Alphabetic # Lo   [2] DIVES AKURU LETTER NYA..DIVES AKURU LETTER TTA",
text! "11918..1192F  ; Alphabetic # Lo  [24] DIVES AKURU LETTER DDA..DIVES AKURU LETTER ZA",
text! "11930..11935  ; Alphabetic # Mc   [6] DIVES AKURU VOWEL SIGN AA..DIVES AKURU VOWEL SIGN E",
text! "11937..11938  ; Alphabetic # Mc   [2] DIVES AKURU VOWEL SIGN AI..DIVES AKURU VOWEL SIGN O",
text! "1193B..1193C  ; Alphabetic # Mn   [2] DIVES AKURU SIGN ANUSVARA..DIVES AKURU SIGN CANDRABINDU",
text! "1193F         ; Alphabetic # Lo       DIVES AKURU PREFIXED NASAL SIGN",
text! "11940         ; Alphabetic # Mc       DIVES AKURU MEDIAL YA"]

/-- lines 1217-1280 -/
def derivedCore19 : List Nat := [
text! "11941         ; Alphabetic # Lo       DIVES AKURU INITIAL RA",
text! "11942         ; Alphabetic # Mc       DIVES AKURU MEDIAL RA",
text! "119A0..119A7  ; Alphabetic # Lo   [8] NANDINAGARI LETTER A..NANDINAGARI LETTER VOCALIC RR",
text! "119AA..119D0  ; Alphabetic # Lo  [39] NANDINAGARI LETTER E..NANDINAGARI LETTER RRA",
text! "119D1..119D3  ; Alphabetic # Mc   [3] NANDINAGARI VOWEL SIGN AA..NANDINAGARI VOWEL SIGN II",
text! "119D4..119D7  ; Alphabetic # Mn   [4] NANDINAGARI VOWEL SIGN U..NANDINAGARI VOWEL SIGN VOCALIC RR",
text! "119DA..119DB  ; Alphabetic # Mn   [2] NANDINAGARI VOWEL SIGN E..NANDINAGARI VOWEL SIGN AI",
text! "119DC..119DF  ; Alphabetic # Mc   [4] NANDINAGARI VOWEL SIGN O..NANDINAGARI SIGN VISARGA",
text! "119E1         ; Alphabetic # Lo       NANDINAGARI SIGN AVAGRAHA",
text! "119E3         ; Alphabetic # Lo       NANDINAGARI HEADSTROKE",
text! "119E4         ; Alphabetic # Mc       NANDINAGARI VOWEL SIGN PRISHTHAMATRA E",
text! "11A00         ; Alphabetic # Lo       ZANABAZAR SQUARE LETTER A",
text! "11A01..11A0A  ; Alphabetic # Mn  [10] ZANABAZAR SQUARE VOWEL SIGN I..ZANABAZAR SQUARE VOWEL LENGTH MARK",
text! "11A0B..11A32  ; Alphabetic # Lo  [40] ZANABAZAR SQUARE LETTER KA..ZANABAZAR SQUARE LETTER KSSA",
text! "11A35..11A38  ; Alphabetic # Mn   [4] ZANABAZAR SQUARE SIGN CANDRABINDU..ZANABAZAR SQUARE SIGN ANUSVARA",
text! "11A39         ; Alphabetic # Mc       ZANABAZAR SQUARE SIGN VISARGA",
text! "11A3A         ; Alphabetic # Lo       ZANABAZAR SQUARE CLUSTER-INITIAL LETTER RA",
text! "11A3B..11A3E  ; Alphabetic # Mn   [4] ZANABAZAR SQUARE CLUSTER-FINAL LETTER YA..ZANABAZAR SQUARE CLUSTER-FINAL LETTER VA",
text! "11A50         ; Alphabetic # Lo       SOYOMBO LETTER A",
text! "11A51..11A56  ; Alphabetic # Mn   [6] SOYOMBO VOWEL SIGN I..SOYOMBO VOWEL SIGN OE",
text! "11A57..11A58  ; Alphabetic # Mc   [2] SOYOMBO VOWEL SIGN AI..SOYOMBO VOWEL SIGN AU",
text! "11A59..11A5B  ; Alphabetic # Mn   [3] SOYOMBO VOWEL SIGN VOCALIC R..SOYOMBO VOWEL LENGTH MARK",
text! "11A5C..11A89  ; Alphabetic # Lo  [46] SOYOMBO LETTER KA..SOYOMBO CLUSTER-INITIAL LETTER SA",
text! "11A8A..11A96  ; Alphabetic # Mn  [13] SOYOMBO FINAL CONSONANT SIGN G..SOYOMBO SIGN ANUSVARA",
text! "11A97         ; Alphabetic # Mc       SOYOMBO SIGN VISARGA",
text! "11A9D         ; Alphabetic # Lo       SOYOMBO MARK PLUTA",
text! "11AB0..11AF8  ; Alphabetic # Lo  [73] CANADIAN SYLLABICS NATTILIK HI..PAU CIN HAU GLOTTAL STOP FINAL",
text! "11B60         ; Alphabetic # Mn       SHARADA VOWEL SIGN OE",
text! "11B61         ; Alphabetic # Mc       SHARADA VOWEL SIGN OOE",
text! "11B62..11B64  ; Alphabetic # Mn   [3] SHARADA VOWEL SIGN UE..SHARADA VOWEL SIGN SHORT E",
text! "11B65         ; Alphabetic # Mc       SHARADA VOWEL SIGN SHORT O",
text! "11B66         ; Alphabetic # Mn       SHARADA VOWEL SIGN CANDRA E",
text! "11B67         ; Alphabetic # Mc       SHARADA VOWEL SIGN CANDRA O",
text! "11BC0..11BE0  ; Alphabetic # Lo  [33] SUNUWAR LETTER DEVI..SUNUWAR LETTER KLOKO",
text! "11C00..11C08  ; Alphabetic # Lo   [9] BHAIKSUKI LETTER A..BHAIKSUKI LETTER VOCALIC L",
text! "11C0A..11C2E  ; Alphabetic # Lo  [37] BHAIKSUKI LETTER E..BHAIKSUKI LETTER HA",
text! "11C2F         ; Alphabetic # Mc       BHAIKSUKI VOWEL SIGN AA",
text! "11C30..11C36  ; Alphabetic # Mn   [7] BHAIKSUKI VOWEL SIGN I..BHAIKSUKI VOWEL SIGN VOCALIC L",
text! "11C38..11C3D  ; Alphabetic # Mn   [6] BHAIKSUKI VOWEL SIGN E..BHAIKSUKI SIGN ANUSVARA",
text! "11C3E         ; Alphabetic # Mc       BHAIKSUKI SIGN VISARGA",
text! "11C40         ; Alphabetic # Lo       BHAIKSUKI SIGN AVAGRAHA",
text! "11C72..11C8F  ; Alphabetic # Lo  [30] MARCHEN LETTER KA..MARCHEN LETTER A",
text! "11C92..11CA7  ; Alphabetic # Mn  [22] MARCHEN SUBJOINED LETTER KA..MARCHEN SUBJOINED LETTER ZA",
text! "11CA9         ; Alphabetic # Mc       MARCHEN SUBJOINED LETTER YA",
text! "11CAA..11CB0  ; Alphabetic # Mn   [7] MARCHEN SUBJOINED LETTER RA..MARCHEN VOWEL SIGN AA",
text! "11CB1         ; Alphabetic # Mc       MARCHEN VOWEL SIGN I",
text! "11CB2..11CB3  ; Alphabetic # Mn   [2] MARCHEN VOWEL SIGN U..MARCHEN VOWEL SIGN E",
text! "11CB4         ; Alphabetic # Mc       MARCHEN VOWEL SIGN O",
text! "11CB5..11CB6  ; Alphabetic # Mn   [2] MARCHEN SIGN ANUSVARA..MARCHEN SIGN CANDRABINDU",
text! "11D00..11D06  ; Alphabetic # Lo   [7] MASARAM GONDI LETTER A..MASARAM GONDI LETTER E",
text! "11D08..11D09  ; Alphabetic # Lo   [2] MASARAM GONDI LETTER AI..MASARAM GONDI LETTER O",
text! "11D0B..11D30  ; Alphabetic # Lo  [38] MASARAM GONDI LETTER AU..MASARAM GONDI LETTER TRA",
text! "11D31..11D36  ; Alphabetic # Mn   [6] MASARAM GONDI VOWEL SIGN AA..MASARAM GONDI VOWEL SIGN VOCALIC R",
text! "11D3A         ; Alphabetic # Mn       MASARAM GONDI VOWEL SIGN E",
text! "11D3C..11D3D  ; Alphabetic # Mn   [2] MASARAM GONDI VOWEL SIGN AI..MASARAM GONDI VOWEL SIGN O",
text! "11D3F..11D41  ; Alphabetic # Mn   [3] MASARAM GONDI VOWEL SIGN AU..MASARAM GONDI SIGN VISARGA",
text! "11D43         ; Alphabetic # Mn       MASARAM GONDI SIGN CANDRA",
text! "11D46         ; Alphabetic # Lo       MASARAM GONDI REPHA",
text! "11D47         ; Alphabetic # Mn       MASARAM GONDI RA-KARA",
text! "11D60..11D65  ; Alphabetic # Lo   [6] GUNJALA GONDI LETTER A..GUNJALA GONDI LETTER UU",
text! "11D67..11D68  ; Alphabetic # Lo   [2] GUNJALA GONDI LETTER EE..GUNJALA GONDI LETTER AI",
text! "11D6A..11D89  ; Alphabetic # Lo  [32] GUNJALA GONDI LETTER OO..GUNJALA GONDI LETTER SA",
text! "11D8A..11D8E  ; Alphabetic # Mc   [5] GUNJALA GONDI VOWEL SIGN AA..GUNJALA GONDI VOWEL SIGN UU",
text! "11D90..11D91  ; Alphabetic # Mn   [2] GUNJALA GONDI VOWEL SIGN EE..GUNJALA GONDI VOWEL SIGN AI"]

/-- lines 1281-1344 -/
def derivedCore20 : List Nat := [
text! "11D93..11D94  ; Alphabetic # Mc   [2] GUNJALA GONDI VOWEL SIGN OO..GUNJALA GONDI VOWEL SIGN AU",
text! "11D95         ; Alphabetic # Mn       GUNJALA GONDI SIGN ANUSVARA",
text! "11D96         ; Alphabetic # Mc       GUNJALA GONDI SIGN VISARGA",
text! "11D98         ; Alphabetic # Lo       GUNJALA GONDI OM",
text! "11DB0..11DD8  ; Alphabetic # Lo  [41] TOLONG SIKI LETTER I..TOLONG SIKI LETTER RRH",
text! "11DD9         ; Alphabetic # Lm       TOLONG SIKI SIGN SELA",
text! "11DDA..11DDB  ; Alphabetic # Lo   [2] TOLONG SIKI SIGN HECAKA..TOLONG SIKI UNGGA",
text! "11EE0..11EF2  ; Alphabetic # Lo  [19] MAKASAR LETTER KA..MAKASAR ANGKA",
text! "11EF3..11EF4  ; Alphabetic # Mn   [2] MAKASAR VOWEL SIGN I..MAKASAR VOWEL SIGN U",
text! "11EF5..11EF6  ; Alphabetic # Mc   [2] MAKASAR VOWEL SIGN E..MAKASAR VOWEL SIGN O",
text! "11F00..11F01  ; Alphabetic # Mn   [2] KAWI SIGN CANDRABINDU..KAWI SIGN ANUSVARA",
text! "11F02         ; Alphabetic # Lo       KAWI SIGN REPHA",
text! "11F03         ; Alphabetic # Mc       KAWI SIGN VISARGA",
text! "11F04..11F10  ; Alphabetic # Lo  [13] KAWI LETTER A..KAWI LETTER O",
text! "11F12..11F33  ; Alphabetic # Lo  [34] KAWI LETTER KA..KAWI LETTER JNYA",
text! "11F34..11F35  ; Alphabetic # Mc   [2] KAWI VOWEL SIGN AA..KAWI VOWEL SIGN ALTERNATE AA",
text! "11F36..11F3A  ; Alphabetic # Mn   [5] KAWI VOWEL SIGN I..KAWI VOWEL SIGN VOCALIC R",
text! "11F3E..11F3F  ; Alphabetic # Mc   [2] KAWI VOWEL SIGN E..KAWI VOWEL SIGN AI",
text! "11F40         ; Alphabetic # Mn       KAWI VOWEL SIGN EU",
text! "11FB0         ; Alphabetic # Lo       LISU LETTER YHA",
text! "12000..12399  ; Alphabetic # Lo [922] CUNEIFORM SIGN A..CUNEIFORM SIGN U U",
text! "12400..1246E  ; Alphabetic # Nl [111] CUNEIFORM NUMERIC SIGN TWO ASH..CUNEIFORM NUMERIC SIGN NINE U VARIANT FORM",
text! "12480..12543  ; Alphabetic # Lo [196] CUNEIFORM SIGN AB TIMES NUN TENU..CUNEIFORM SIGN ZU5 TIMES THREE DISH TENU",
text! "12F90..12FF0  ; Alphabetic # Lo  [97] CYPRO-MINOAN SIGN CM001..CYPRO-MINOAN SIGN CM114",
text! "13000..1342F  ; Alphabetic # Lo [1072] EGYPTIAN HIEROGLYPH A001..EGYPTIAN HIEROGLYPH V011D",
text! "13441..13446  ; Alphabetic # Lo   [6] EGYPTIAN HIEROGLYPH FULL BLANK..EGYPTIAN HIEROGLYPH WIDE LOST SIGN",
text! "13460..143FA  ; Alphabetic # Lo [3995] EGYPTIAN HIEROGLYPH-13460..EGYPTIAN HIEROGLYPH-143FA",
text! "14400..14646  ; Alphabetic # Lo [583] ANATOLIAN HIEROGLYPH A001..ANATOLIAN HIEROGLYPH A530",
text! "16100..1611D  ; Alphabetic # Lo  [30] GURUNG KHEMA LETTER A..GURUNG KHEMA LETTER SA",
text! "1611E..16129  ; Alphabetic # Mn  [12] GURUNG KHEMA VOWEL SIGN AA..GURUNG KHEMA VOWEL LENGTH MARK",
text! "1612A..1612C  ; Alphabetic # Mc   [3] GURUNG KHEMA CONSONANT SIGN MEDIAL YA..GURUNG KHEMA CONSONANT SIGN MEDIAL HA",
text! "1612D..1612E  ; Alphabetic # Mn   [2] GURUNG KHEMA SIGN ANUSVARA..GURUNG KHEMA CONSONANT SIGN MEDIAL RA",
text! "16800..16A38  ; Alphabetic # Lo [569] BAMUM LETTER PHASE-A NGKUE MFON..BAMUM LETTER PHASE-F VUEQ",
text! "16A40..16A5E  ; Alphabetic # Lo  [31] MRO LETTER TA..MRO LETTER TEK",
text! "16A70..16ABE  ; Alphabetic # Lo  [79] TANGSA LETTER OZ..TANGSA LETTER ZA",
text! "16AD0..16AED  ; Alphabetic # Lo  [30] BASSA VAH LETTER ENNI..BASSA VAH LETTER I",
text! "16B00..16B2F  ; Alphabetic # Lo  [48] PAHAWH HMONG VOWEL KEEB..PAHAWH HMONG CONSONANT CAU",
text! "16B40..16B43  ; Alphabetic # Lm   [4] PAHAWH HMONG SIGN VOS SEEV..PAHAWH HMONG SIGN IB YAM",
text! "16B63..16B77  ; Alphabetic # Lo  [21] PAHAWH HMONG SIGN VOS LUB..PAHAWH HMONG SIGN CIM NRES TOS",
text! "16B7D..16B8F  ; Alphabetic # Lo  [19] PAHAWH HMONG CLAN SIGN TSHEEJ..PAHAWH HMONG CLAN SIGN VWJ",
text! "16D40..16D42  ; Alphabetic # Lm   [3] KIRAT RAI SIGN ANUSVARA..KIRAT RAI SIGN VISARGA",
text! "16D43..16D6A  ; Alphabetic # Lo  [40] KIRAT RAI LETTER A..KIRAT RAI VOWEL SIGN AU",
text! "16D6B..16D6C  ; Alphabetic # Lm   [2] KIRAT RAI SIGN VIRAMA..KIRAT RAI SIGN SAAT",
text! "16E40..16E7F  ; Alphabetic # L&  [64] MEDEFAIDRIN CAPITAL LETTER M..MEDEFAIDRIN SMALL LETTER Y",
text! "16EA0..16EB8  ; Alphabetic # L&  [25] BERIA ERFE CAPITAL LETTER ARKAB..BERIA ERFE CAPITAL LETTER AY",
text! "16EBB..16ED3  ; Alphabetic # L&  [25] BERIA ERFE SMALL LETTER ARKAB..BERIA ERFE SMALL LETTER AY",
text! "16F00..16F4A  ; Alphabetic # Lo  [75] MIAO LETTER PA..MIAO LETTER RTE",
text! "16F4F         ; Alphabetic # Mn       MIAO SIGN CONSONANT MODIFIER BAR",
text! "16F50         ; Alphabetic # Lo       MIAO LETTER NASALIZATION",
text! "16F51..16F87  ; Alphabetic # Mc  [55] MIAO SIGN ASPIRATION..MIAO VOWEL SIGN UI",
text! "16F8F..16F92  ; Alphabetic # Mn   [4] MIAO TONE RIGHT..MIAO TONE BELOW",
text! "16F93..16F9F  ; Alphabetic # Lm  [13] MIAO LETTER TONE-2..MIAO LETTER REFORMED TONE-8",
text! "16FE0..16FE1  ; Alphabetic # Lm   [2] TANGUT ITERATION MARK..NUSHU ITERATION MARK",
text! "16FE3         ; Alphabetic # Lm       OLD CHINESE ITERATION MARK",
text! "16FF0..16FF1  ; Alphabetic # Mc   [2] VIETNAMESE ALTERNATE READING MARK CA..VIETNAMESE ALTERNATE READING MARK NHAY",
text! "16FF2..16FF3  ; Alphabetic # Lm   [2] CHINESE SMALL SIMPLIFIED ER..CHINESE SMALL TRADITIONAL ER",
text! "16FF4..16FF6  ; Alphabetic # Nl   [3] YANGQIN SIGN SLOW ONE BEAT..YANGQIN SIGN SLOW TWO BEATS",
text! "17000..18CD5  ; Alphabetic # Lo [7382] TANGUT IDEOGRAPH-17000..KHITAN SMALL SCRIPT CHARACTER-18CD5",
text! "18CFF..18D1E  ; Alphabetic # Lo  [32] KHITAN SMALL SCRIPT CHARACTER-18CFF..TANGUT IDEOGRAPH-18D1E",
text! "18D80..18DF2  ; Alphabetic # Lo [115] TANGUT COMPONENT-769..TANGUT COMPONENT-883",
text! "1AFF0..1AFF3  ; Alphabetic # Lm   [4] KATAKANA LETTER MINNAN TONE-2..KATAKANA LETTER MINNAN TONE-5",
text! "1AFF5..1AFFB  ; Alphabetic # Lm   [7] KATAKANA LETTER MINNAN TONE-7..KATAKANA LETTER MINNAN NASALIZED TONE-5",
text! "1AFFD..1AFFE  ; Alphabetic # Lm   [2] KATAKANA LETTER MINNAN NASALIZED TONE-7..KATAKANA LETTER MINNAN NASALIZED TONE-8",
text! "1B000..1B122  ; Alphabetic # Lo [291] KATAKANA LETTER ARCHAIC E..KATAKANA LETTER ARCHAIC WU"]

/-- lines 1345-1408 -/
def derivedCore21 : List Nat := [
text! "1B132         ; Alphabetic # Lo       HIRAGANA LETTER SMALL KO",
text! "1B150..1B152  ; Alphabetic # Lo   [3] HIRAGANA LETTER SMALL WI..HIRAGANA LETTER SMALL WO",
text! "1B155         ; Alphabetic # Lo       KATAKANA LETTER SMALL KO",
text! "1B164..1B167  ; Alphabetic # Lo   [4] KATAKANA LETTER SMALL WI..KATAKANA LETTER SMALL N",
text! "1B170..1B2FB  ; Alphabetic # Lo [396] NUSHU CHARACTER-1B170..NUSHU CHARACTER-1B2FB",
text! "1BC00..1BC6A  ; Alphabetic # Lo [107] DUPLOYAN LETTER H..DUPLOYAN LETTER VOCALIC M",
text! "1BC70..1BC7C  ; Alphabetic # Lo  [13] DUPLOYAN AFFIX LEFT HORIZONTAL SECANT..DUPLOYAN AFFIX ATTACHED TANGENT HOOK",
text! "1BC80..1BC88  ; Alphabetic # Lo   [9] DUPLOYAN AFFIX HIGH ACUTE..DUPLOYAN AFFIX HIGH VERTICAL",
text! "1BC90..1BC99  ; Alphabetic # Lo  [10] DUPLOYAN AFFIX LOW ACUTE..DUPLOYAN AFFIX LOW ARROW",
text! "1BC9E         ; Alphabetic # Mn       DUPLOYAN DOUBLE MARK",
text! "1D400..1D454  ; Alphabetic # L&  [85] MATHEMATICAL BOLD CAPITAL A..MATHEMATICAL ITALIC SMALL G",
text! "1D456..1D49C  ; Alphabetic # L&  [71] MATHEMATICAL ITALIC SMALL I..MATHEMATICAL SCRIPT CAPITAL A",
text! "1D49E..1D49F  ; Alphabetic # L&   [2] MATHEMATICAL SCRIPT CAPITAL C..MATHEMATICAL SCRIPT CAPITAL D",
text! "1D4A2         ; Alphabetic # L&       MATHEMATICAL SCRIPT CAPITAL G",
text! "1D4A5..1D4A6  ; Alphabetic # L&   [2] MATHEMATICAL SCRIPT CAPITAL J..MATHEMATICAL SCRIPT CAPITAL K",
text! "1D4A9..1D4AC  ; Alphabetic # L&   [4] MATHEMATICAL SCRIPT CAPITAL N..MATHEMATICAL SCRIPT CAPITAL Q",
text! "1D4AE..1D4B9  ; Alphabetic # L&  [12] MATHEMATICAL SCRIPT CAPITAL S..MATHEMATICAL SCRIPT SMALL D",
text! "1D4BB         ; Alphabetic # L&       MATHEMATICAL SCRIPT SMALL F",
text! "1D4BD..1D4C3  ; Alphabetic # L&   [7] MATHEMATICAL SCRIPT SMALL H..MATHEMATICAL SCRIPT SMALL N",
text! "1D4C5..1D505  ; Alphabetic # L&  [65] MATHEMATICAL SCRIPT SMALL P..MATHEMATICAL FRAKTUR CAPITAL B",
text! "1D507..1D50A  ; Alphabetic # L&   [4] MATHEMATICAL FRAKTUR CAPITAL D..MATHEMATICAL FRAKTUR CAPITAL G",
text! "1D50D..1D514  ; Alphabetic # L&   [8] MATHEMATICAL FRAKTUR CAPITAL J..MATHEMATICAL FRAKTUR CAPITAL Q",
text! "1D516..1D51C  ; Alphabetic # L&   [7] MATHEMATICAL FRAKTUR CAPITAL S..MATHEMATICAL FRAKTUR CAPITAL Y",
text! "1D51E..1D539  ; Alphabetic # L&  [28] MATHEMATICAL FRAKTUR SMALL A..MATHEMATICAL DOUBLE-STRUCK CAPITAL B",
text! "1D53B..1D53E  ; Alphabetic # L&   [4] MATHEMATICAL DOUBLE-STRUCK CAPITAL D..MATHEMATICAL DOUBLE-STRUCK CAPITAL G",
text! "1D540..1D544  ; Alphabetic # L&   [5] MATHEMATICAL DOUBLE-STRUCK CAPITAL I..MATHEMATICAL DOUBLE-STRUCK CAPITAL M",
text! "1D546         ; Alphabetic # L&       MATHEMATICAL DOUBLE-STRUCK CAPITAL O",
text! "1D54A..1D550  ; Alphabetic # L&   [7] MATHEMATICAL DOUBLE-STRUCK CAPITAL S..MATHEMATICAL DOUBLE-STRUCK CAPITAL Y",
text! "1D552..1D6A5  ; Alphabetic # L& [340] MATHEMATICAL DOUBLE-STRUCK SMALL A..MATHEMATICAL ITALIC SMALL DOTLESS J",
text! "1D6A8..1D6C0  ; Alphabetic # L&  [25] MATHEMATICAL BOLD CAPITAL ALPHA..MATHEMATICAL BOLD CAPITAL OMEGA",
text! "1D6C2..1D6DA  ; Alphabetic # L&  [25] MATHEMATICAL BOLD SMALL ALPHA..MATHEMATICAL BOLD SMALL OMEGA",
text! "1D6DC..1D6FA  ; Alphabetic # L&  [31] MATHEMATICAL BOLD EPSILON SYMBOL..MATHEMATICAL ITALIC CAPITAL OMEGA",
text! "1D6FC..1D714  ; Alphabetic # L&  [25] MATHEMATICAL ITALIC SMALL ALPHA..MATHEMATICAL ITALIC SMALL OMEGA",
text! "1D716..1D734  ; Alphabetic # L&  [31] MATHEMATICAL ITALIC EPSILON SYMBOL..MATHEMATICAL BOLD ITALIC CAPITAL OMEGA",
text! "1D736..1D74E  ; Alphabetic # L&  [25] MATHEMATICAL BOLD ITALIC SMALL ALPHA..MATHEMATICAL BOLD ITALIC SMALL OMEGA",
text! "1D750..1D76E  ; Alphabetic # L&  [31] MATHEMATICAL BOLD ITALIC EPSILON SYMBOL..MATHEMATICAL SANS-SERIF BOLD CAPITAL OMEGA",
text! "1D770..1D788  ; Alphabetic # L&  [25] MATHEMATICAL SANS-SERIF BOLD SMALL ALPHA..MATHEMATICAL SANS-SERIF BOLD SMALL OMEGA",
text! "1D78A..1D7A8  ; Alphabetic # L&  [31] MATHEMATICAL SANS-SERIF BOLD EPSILON SYMBOL..MATHEMATICAL SANS-SERIF BOLD ITALIC CAPITAL OMEGA",
text! "1D7AA..1D7C2  ; Alphabetic # L&  [25] MATHEMATICAL SANS-SERIF BOLD ITALIC SMALL ALPHA..MATHEMATICAL SANS-SERIF BOLD ITALIC SMALL OMEGA",
text! "1D7C4..1D7CB  ; Alphabetic # L&   [8] MATHEMATICAL SANS-SERIF BOLD ITALIC EPSILON SYMBOL..MATHEMATICAL BOLD SMALL DIGAMMA",
text! "1DF00..1DF09  ; Alphabetic # L&  [10] LATIN SMALL LETTER FENG DIGRAPH WITH TRILL..LATIN SMALL LETTER T WITH HOOK AND RETROFLEX HOOK",
text! "1DF0A         ; Alphabetic # Lo       LATIN LETTER RETROFLEX CLICK WITH RETROFLEX HOOK",
text! "1DF0B..1DF1E  ; Alphabetic # L&  [20] LATIN SMALL LETTER ESH WITH DOUBLE BAR..LATIN SMALL LETTER S WITH CURL",
text! "1DF25..1DF2A  ; Alphabetic # L&   [6] LATIN SMALL LETTER D WITH MID-HEIGHT LEFT HOOK..LATIN SMALL LETTER T WITH MID-HEIGHT LEFT HOOK",
text! "1E000..1E006  ; Alphabetic # Mn   [7] COMBINING GLAGOLITIC LETTER AZU..COMBINING GLAGOLITIC LETTER ZHIVETE",
text! "1E008..1E018  ; Alphabetic # Mn  [17] COMBINING GLAGOLITIC LETTER ZEMLJA..COMBINING GLAGOLITIC LETTER HERU",
text! "1E01B..1E021  ; Alphabetic # Mn   [7] COMBINING GLAGOLITIC LETTER SHTA..COMBINING GLAGOLITIC LETTER YATI",
text! "1E023..1E024  ; Alphabetic # Mn   [2] COMBINING GLAGOLITIC LETTER YU..COMBINING GLAGOLITIC LETTER SMALL YUS",
text! "1E026..1E02A  ; Alphabetic # Mn   [5] COMBINING GLAGOLITIC LETTER YO..COMBINING GLAGOLITIC LETTER FITA",
text! "1E030..1E06D  ; Alphabetic # Lm  [62] MODIFIER LETTER CYRILLIC SMALL A..MODIFIER LETTER CYRILLIC SMALL STRAIGHT U WITH STROKE",
text! "1E08F         ; Alphabetic # Mn       COMBINING CYRILLIC SMALL LETTER BYELORUSSIAN-UKRAINIAN I",
text! "1E100..1E12C  ; Alphabetic # Lo  [45] NYIAKENG PUACHUE HMONG LETTER MA..NYIAKENG PUACHUE HMONG LETTER W",
text! "1E137..1E13D  ; Alphabetic # Lm   [7] NYIAKENG PUACHUE HMONG SIGN FOR PERSON..NYIAKENG PUACHUE HMONG SYLLABLE LENGTHENER",
text! "1E14E         ; Alphabetic # Lo       NYIAKENG PUACHUE HMONG LOGOGRAM NYAJ",
text! "1E290..1E2AD  ; Alphabetic # Lo  [30] TOTO LETTER PA..TOTO LETTER A",
text! "1E2C0..1E2EB  ; Alphabetic # Lo  [44] WANCHO LETTER AA..WANCHO LETTER YIH",
text! "1E4D0..1E4EA  ; Alphabetic # Lo  [27] NAG MUNDARI LETTER O..NAG MUNDARI LETTER ELL",
text! "1E4EB         ; Alphabetic # Lm       NAG MUNDARI SIGN OJOD",
text! "1E5D0..1E5ED  ; Alphabetic # Lo  [30] OL ONAL LETTER O..OL ONAL LETTER EG",
text! "1E5F0         ; Alphabetic # Lo       OL ONAL SIGN HODDOND",
text! "1E6C0..1E6DE  ; Alphabetic # Lo  [31] TAI YO LETTER LOW KO..TAI YO LETTER HIGH KVO",
text! "1E6E0..1E6E2  ; Alphabetic # Lo   [3] TAI YO LETTER AA..TAI YO LETTER UE",
text! "1E6E3         ; Alphabetic # Mn       TAI YO SIGN UE",
text! "1E6E4..1E6E5  ; Alphabetic # Lo   [2] TAI YO LETTER U..TAI YO LETTER AE"]

/-- lines 1409-1472 -/
def derivedCore22 : List Nat := [
text! "1E6E6         ; Alphabetic # Mn       TAI YO SIGN AU",
text! "1E6E7..1E6ED  ; Alphabetic # Lo   [7] TAI YO LETTER O..TAI YO LETTER AUE",
text! "1E6EE..1E6EF  ; Alphabetic # Mn   [2] TAI YO SIGN AY..TAI YO SIGN ANG",
text! "1E6F0..1E6F4  ; Alphabetic # Lo   [5] TAI YO LETTER AN..TAI YO LETTER AP",
text! "1E6F5         ; Alphabetic # Mn       TAI YO SIGN OM",
text! "1E6FE         ; Alphabetic # Lo       TAI YO SYMBOL MUEANG",
text! "1E6FF         ; Alphabetic # Lm       TAI YO XAM LAI",
text! "1E7E0..1E7E6  ; Alphabetic # Lo   [7] ETHIOPIC SYLLABLE HHYA..ETHIOPIC SYLLABLE HHYO",
text! "1E7E8..1E7EB  ; Alphabetic # Lo   [4] ETHIOPIC SYLLABLE GURAGE HHWA..ETHIOPIC SYLLABLE HHWE",
text! "1E7ED..1E7EE  ; Alphabetic # Lo   [2] ETHIOPIC SYLLABLE GURAGE MWI..ETHIOPIC SYLLABLE GURAGE MWEE",
text! "1E7F0..1E7FE  ; Alphabetic # Lo  [15] ETHIOPIC SYLLABLE GURAGE QWI..ETHIOPIC SYLLABLE GURAGE PWEE",
text! "1E800..1E8C4  ; Alphabetic # Lo [197] MENDE KIKAKUI SYLLABLE M001 KI..MENDE KIKAKUI SYLLABLE M060 NYON",
text! "1E900..1E943  ; Alphabetic # L&  [68] ADLAM CAPITAL LETTER ALIF..ADLAM SMALL LETTER SHA",
text! "1E947         ; Alphabetic # Mn       ADLAM HAMZA",
text! "1E94B         ; Alphabetic # Lm       ADLAM NASALIZATION MARK",
text! "1EE00..1EE03  ; Alphabetic # Lo   [4] ARABIC MATHEMATICAL ALEF..ARABIC MATHEMATICAL DAL",
text! "1EE05..1EE1F  ; Alphabetic # Lo  [27] ARABIC MATHEMATICAL WAW..ARABIC MATHEMATICAL DOTLESS QAF",
text! "1EE21..1EE22  ; Alphabetic # Lo   [2] ARABIC MATHEMATICAL INITIAL BEH..ARABIC MATHEMATICAL INITIAL JEEM",
text! "1EE24         ; Alphabetic # Lo       ARABIC MATHEMATICAL INITIAL HEH",
text! "1EE27         ; Alphabetic # Lo       ARABIC MATHEMATICAL INITIAL HAH",
text! "1EE29..1EE32  ; Alphabetic # Lo  [10] ARABIC MATHEMATICAL INITIAL YEH..ARABIC MATHEMATICAL INITIAL QAF",
text! "1EE34..1EE37  ; Alphabetic # Lo   [4] ARABIC MATHEMATICAL INITIAL SHEEN..ARABIC MATHEMATICAL INITIAL KHAH",
text! "1EE39         ; Alphabetic # Lo       ARABIC MATHEMATICAL INITIAL DAD",
text! "1EE3B         ; Alphabetic # Lo       ARABIC MATHEMATICAL INITIAL GHAIN",
text! "1EE42         ; Alphabetic # Lo       ARABIC MATHEMATICAL TAILED JEEM",
text! "1EE47         ; Alphabetic # Lo       ARABIC MATHEMATICAL TAILED HAH",
text! "1EE49         ; Alphabetic # Lo       ARABIC MATHEMATICAL TAILED YEH",
text! "1EE4B         ; Alphabetic # Lo       ARABIC MATHEMATICAL TAILED LAM",
text! "1EE4D..1EE4F  ; Alphabetic # Lo   [3] ARABIC MATHEMATICAL TAILED NOON..ARABIC MATHEMATICAL TAILED AIN",
text! "1EE51..1EE52  ; Alphabetic # Lo   [2] ARABIC MATHEMATICAL TAILED SAD..ARABIC MATHEMATICAL TAILED QAF",
text! "1EE54         ; Alphabetic # Lo       ARABIC MATHEMATICAL TAILED SHEEN",
text! "1EE57         ; Alphabetic # Lo       ARABIC MATHEMATICAL TAILED KHAH",
text! "1EE59         ; Alphabetic # Lo       ARABIC MATHEMATICAL TAILED DAD",
text! "1EE5B         ; Alphabetic # Lo       ARABIC MATHEMATICAL TAILED GHAIN",
text! "1EE5D         ; Alphabetic # Lo       ARABIC MATHEMATICAL TAILED DOTLESS NOON",
text! "1EE5F         ; Alphabetic # Lo       ARABIC MATHEMATICAL TAILED DOTLESS QAF",
text! "1EE61..1EE62  ; Alphabetic # Lo   [2] ARABIC MATHEMATICAL STRETCHED BEH..ARABIC MATHEMATICAL STRETCHED JEEM",
text! "1EE64         ; Alphabetic # Lo       ARABIC MATHEMATICAL STRETCHED HEH",
text! "1EE67..1EE6A  ; Alphabetic # Lo   [4] ARABIC MATHEMATICAL STRETCHED HAH..ARABIC MATHEMATICAL STRETCHED KAF",
text! "1EE6C..1EE72  ; Alphabetic # Lo   [7] ARABIC MATHEMATICAL STRETCHED MEEM..ARABIC MATHEMATICAL STRETCHED QAF",
text! "1EE74..1EE77  ; Alphabetic # Lo   [4] ARABIC MATHEMATICAL STRETCHED SHEEN..ARABIC MATHEMATICAL STRETCHED KHAH",
text! "1EE79..1EE7C  ; Alphabetic # Lo   [4] ARABIC MATHEMATICAL STRETCHED DAD..ARABIC MATHEMATICAL STRETCHED DOTLESS BEH",
text! "1EE7E         ; Alphabetic # Lo       ARABIC MATHEMATICAL STRETCHED DOTLESS FEH",
text! "1EE80..1EE89  ; Alphabetic # Lo  [10] ARABIC MATHEMATICAL LOOPED ALEF..ARABIC MATHEMATICAL LOOPED YEH",
text! "1EE8B..1EE9B  ; Alphabetic # Lo  [17] ARABIC MATHEMATICAL LOOPED LAM..ARABIC MATHEMATICAL LOOPED GHAIN",
text! "1EEA1..1EEA3  ; Alphabetic # Lo   [3] ARABIC MATHEMATICAL DOUBLE-STRUCK BEH..ARABIC MATHEMATICAL DOUBLE-STRUCK DAL",
text! "1EEA5..1EEA9  ; Alphabetic # Lo   [5] ARABIC MATHEMATICAL DOUBLE-STRUCK WAW..ARABIC MATHEMATICAL DOUBLE-STRUCK YEH",
text! "1EEAB..1EEBB  ; Alphabetic # Lo  [17] ARABIC MATHEMATICAL DOUBLE-STRUCK LAM..ARABIC MATHEMATICAL DOUBLE-STRUCK GHAIN",
text! "1F130..1F149  ; Alphabetic # So  [26] SQUARED LATIN CAPITAL LETTER A..SQUARED LATIN CAPITAL LETTER Z",
text! "1F150..1F169  ; Alphabetic # So  [26] NEGATIVE CIRCLED LATIN CAPITAL LETTER A..NEGATIVE CIRCLED LATIN CAPITAL LETTER Z",
text! "1F170..1F189  ; Alphabetic # So  [26] NEGATIVE SQUARED LATIN CAPITAL LETTER A..NEGATIVE SQUARED LATIN CAPITAL LETTER Z",
text! "20000..2A6DF  ; Alphabetic # Lo [42720] CJK UNIFIED IDEOGRAPH-20000..CJK UNIFIED IDEOGRAPH-2A6DF",
text! "2A700..2B81D  ; Alphabetic # Lo [4382] CJK UNIFIED IDEOGRAPH-2A700..CJK UNIFIED IDEOGRAPH-2B81D",
text! "2B820..2CEAD  ; Alphabetic # Lo [5774] CJK UNIFIED IDEOGRAPH-2B820..CJK UNIFIED IDEOGRAPH-2CEAD",
text! "2CEB0..2EBE0  ; Alphabetic # Lo [7473] CJK UNIFIED IDEOGRAPH-2CEB0..CJK UNIFIED IDEOGRAPH-2EBE0",
text! "2EBF0..2EE5D  ; Alphabetic # Lo [622] CJK UNIFIED IDEOGRAPH-2EBF0..CJK UNIFIED IDEOGRAPH-2EE5D",
text! "2F800..2FA1D  ; Alphabetic # Lo [542] CJK COMPATIBILITY IDEOGRAPH-2F800..CJK COMPATIBILITY IDEOGRAPH-2FA1D",
text! "30000..3134A  ; Alphabetic # Lo [4939] CJK UNIFIED IDEOGRAPH-30000..CJK UNIFIED IDEOGRAPH-3134A",
text! "31350..33479  ; Alphabetic # Lo [8490] CJK UNIFIED IDEOGRAPH-31350..CJK UNIFIED IDEOGRAPH-33479",
text! "",
text! "# Total code points: 147421",
text! "",
text! "# ================================================",
text! ""]

/-- lines 1473-1536 -/
def derivedCore23 : List Nat := [
text! "# Derived Property: Lowercase",
text! "#  Generated from: Ll + Other_Lowercase",
text! "",
text! "0061..007A    ; Lowercase # L&  [26] LATIN SMALL LETTER A..LATIN SMALL LETTER Z",
text! "00AA          ; Lowercase # Lo       FEMININE ORDINAL INDICATOR",
text! "00B5          ; Lowercase # L&       MICRO SIGN",
text! "00BA          ; Lowercase # Lo       MASCULINE ORDINAL INDICATOR",
text! "00DF..00F6    ; Lowercase # L&  [24] LATIN SMALL LETTER SHARP S..LATIN SMALL LETTER O WITH DIAERESIS",
text! "00F8..00FF    ; Lowercase # L&   [8] LATIN SMALL LETTER O WITH STROKE..LATIN SMALL LETTER Y WITH DIAERESIS",
text! "0101          ; Lowercase # L&       LATIN SMALL LETTER A WITH MACRON",
text! "0103          ; Lowercase # L&       LATIN SMALL LETTER A WITH BREVE",
text! "0105          ; Lowercase # L&       LATIN SMALL LETTER A WITH OGONEK",
text! "0107          ; Lowercase # L&       LATIN SMALL LETTER C WITH ACUTE",
text! "0109          ; Lowercase # L&       LATIN SMALL LETTER C WITH CIRCUMFLEX",
text! "010B          ; Lowercase # L&       LATIN SMALL LETTER C WITH DOT ABOVE",
text! "010D          ; Lowercase # L&       LATIN SMALL LETTER C WITH CARON",
text! "010F          ; Lowercase # L&       LATIN SMALL LETTER D WITH CARON",
text! "0111          ; Lowercase # L&       LATIN SMALL LETTER D WITH STROKE",
text! "0113          ; Lowercase # L&       LATIN SMALL LETTER E WITH MACRON",
text! "0115          ; Lowercase # L&       LATIN SMALL LETTER E WITH BREVE",
text! "0117          ; Lowercase # L&       LATIN SMALL LETTER E WITH DOT ABOVE",
text! "0119          ; Lowercase # L&       LATIN SMALL LETTER E WITH OGONEK",
text! "011B          ; Lowercase # L&       LATIN SMALL LETTER E WITH CARON",
text! "011D          ; Lowercase # L&       LATIN SMALL LETTER G WITH CIRCUMFLEX",
text! "011F          ; Lowercase # L&       LATIN SMALL LETTER G WITH BREVE",
text! "0121          ; Lowercase # L&       LATIN SMALL LETTER G WITH DOT ABOVE",
text! "0123          ; Lowercase # L&       LATIN SMALL LETTER G WITH CEDILLA",
text! "0125          ; Lowercase # L&       LATIN SMALL LETTER H WITH CIRCUMFLEX",
text! "0127          ; Lowercase # L&       LATIN SMALL LETTER H WITH STROKE",
text! "0129          ; Lowercase # L&       LATIN SMALL LETTER I WITH TILDE",
text! "012B          ; Lowercase # L&       LATIN SMALL LETTER I WITH MACRON",
text! "012D          ; Lowercase # L&       LATIN SMALL LETTER I WITH BREVE",
text! "012F          ; Lowercase # L&       LATIN SMALL LETTER I WITH OGONEK",
text! "0131          ; Lowercase # L&       LATIN SMALL LETTER DOTLESS I",
text! "0133          ; Lowercase # L&       LATIN SMALL LIGATURE IJ",
text! "0135          ; Lowercase # L&       LATIN SMALL LETTER J WITH CIRCUMFLEX",
text! "0137..0138    ; Lowercase # L&   [2] LATIN SMALL LETTER K WITH CEDILLA..LATIN SMALL LETTER KRA",
text! "013A          ; Lowercase # L&       LATIN SMALL LETTER L WITH ACUTE",
text! "013C          ; Lowercase # L&       LATIN SMALL LETTER L WITH CEDILLA",
text! "013E          ; Lowercase # L&       LATIN SMALL LETTER L WITH CARON",
text! "0140          ; Lowercase # L&       LATIN SMALL LETTER L WITH MIDDLE DOT",
text! "0142          ; Lowercase # L&       LATIN SMALL LETTER L WITH STROKE",
text! "0144          ; Lowercase # L&       LATIN SMALL LETTER N WITH ACUTE",
text! "0146          ; Lowercase # L&       LATIN SMALL LETTER N WITH CEDILLA",
text! "0148..0149    ; Lowercase # L&   [2] LATIN SMALL LETTER N WITH CARON..LATIN SMALL LETTER N PRECEDED BY APOSTROPHE",
text! "014B          ; Lowercase # L&       LATIN SMALL LETTER ENG",
text! "014D          ; Lowercase # L&       LATIN SMALL LETTER O WITH MACRON",
text! "014F          ; Lowercase # L&       LATIN SMALL LETTER O WITH BREVE",
text! "0151          ; Lowercase # L&       LATIN SMALL LETTER O WITH DOUBLE ACUTE",
text! "0153          ; Lowercase # L&       LATIN SMALL LIGATURE OE",
text! "0155          ; Lowercase # L&       LATIN SMALL LETTER R WITH ACUTE",
text! "0157          ; Lowercase # L&       LATIN SMALL LETTER R WITH CEDILLA",
text! "0159          ; Lowercase # L&       LATIN SMALL LETTER R WITH CARON",
text! "015B          ; Lowercase # L&       LATIN SMALL LETTER S WITH ACUTE",
text! "015D          ; Lowercase # L&       LATIN SMALL LETTER S WITH CIRCUMFLEX",
text! "015F          ; Lowercase # L&       LATIN SMALL LETTER S WITH CEDILLA",
text! "0161          ; Lowercase # L&       LATIN SMALL LETTER S WITH CARON",
text! "0163          ; Lowercase # L&       LATIN SMALL LETTER T WITH CEDILLA",
text! "0165          ; Lowercase # L&       LATIN SMALL LETTER T WITH CARON",
text! "0167          ; Lowercase # L&       LATIN SMALL LETTER T WITH STROKE",
text! "0169          ; Lowercase # L&       LATIN SMALL LETTER U WITH TILDE",
text! "016B          ; Lowercase # L&       LATIN SMALL LETTER U WITH MACRON",
text! "016D          ; Lowercase # L&       LATIN SMALL LETTER U WITH BREVE",
text! "016F          ; Lowercase # L&       LATIN SMALL LETTER U WITH RING ABOVE"]

/-- lines 1537-1600 -/
def derivedCore24 : List Nat := [
text! "0171          ; Lowercase # L&       LATIN SMALL LETTER U WITH DOUBLE ACUTE",
text! "0173          ; Lowercase # L&       LATIN SMALL LETTER U WITH OGONEK",
text! "0175          ; Lowercase # L&       LATIN SMALL LETTER W WITH CIRCUMFLEX",
text! "0177          ; Lowercase # L&       LATIN SMALL LETTER Y WITH CIRCUMFLEX",
text! "017A          ; Lowercase # L&       LATIN SMALL LETTER Z WITH ACUTE",
text! "017C          ; Lowercase # L&       LATIN SMALL LETTER Z WITH DOT ABOVE",
text! "017E..0180    ; Lowercase # L&   [3] LATIN SMALL LETTER Z WITH CARON..LATIN SMALL LETTER B WITH STROKE",
text! "0183          ; Lowercase # L&       LATIN SMALL LETTER B WITH TOPBAR",
text! "0185          ; Lowercase # L&       LATIN SMALL LETTER TONE SIX",
text! "0188          ; Lowercase # L&       LATIN SMALL LETTER C WITH HOOK",
text! "018C..018D    ; Lowercase # L&   [2] LATIN SMALL LETTER D WITH TOPBAR..LATIN SMALL LETTER TURNED DELTA",
text! "0192          ; Lowercase # L&       LATIN SMALL LETTER F WITH HOOK",
text! "0195          ; Lowercase # L&       LATIN SMALL LETTER HV",
text! "0199..019B    ; Lowercase # L&   [3] LATIN SMALL LETTER K WITH HOOK..LATIN SMALL LETTER LAMBDA WITH STROKE",
text! "019E          ; Lowercase # L&       LATIN SMALL LETTER N WITH LONG RIGHT LEG",
text! "01A1          ; Lowercase # L&       LATIN SMALL LETTER O WITH HORN",
text! "01A3          ; Lowercase # L&       LATIN SMALL LETTER OI",
text! "01A5          ; Lowercase # L&       LATIN SMALL LETTER P WITH HOOK",
text! "01A8          ; Lowercase # L&       LATIN SMALL LETTER TONE TWO",
text! "01AA..01AB    ; Lowercase # L&   [2] LATIN LETTER REVERSED ESH LOOP..LATIN SMALL LETTER T WITH PALATAL HOOK",
text! "01AD          ; Lowercase # L&       LATIN SMALL LETTER T WITH HOOK",
text! "01B0          ; Lowercase # L&       LATIN SMALL LETTER U WITH HORN",
text! "01B4          ; Lowercase # L&       LATIN SMALL LETTER Y WITH HOOK",
text! "01B6          ; Lowercase # L&       LATIN SMALL LETTER Z WITH STROKE",
text! "01B9..01BA    ; Lowercase # L&   [2] LATIN SMALL LETTER EZH REVERSED..LATIN SMALL LETTER EZH WITH TAIL",
text! "01BD..01BF    ; Lowercase # L&   [3] LATIN SMALL LETTER TONE FIVE..LATIN LETTER WYNN",
text! "01C6          ; Lowercase # L&       LATIN SMALL LETTER DZ WITH CARON",
text! "01C9          ; Lowercase # L&       LATIN SMALL LETTER LJ",
text! "01CC          ; Lowercase # L&       LATIN SMALL LETTER NJ",
text! "01CE          ; Lowercase # L&       LATIN SMALL LETTER A WITH CARON",
text! "01D0          ; Lowercase # L&       LATIN SMALL LETTER I WITH CARON",
text! "01D2          ; Lowercase # L&       LATIN SMALL LETTER O WITH CARON",
text! "01D4          ; Lowercase # L&       LATIN SMALL LETTER U WITH CARON",
text! "01D6          ; Lowercase # L&       LATIN SMALL LETTER U WITH DIAERESIS AND MACRON",
text! "01D8          ; Lowercase # L&       LATIN SMALL LETTER U WITH DIAERESIS AND ACUTE",
text! "01DA          ; Lowercase # L&       LATIN SMALL LETTER U WITH DIAERESIS AND CARON",
text! "01DC..01DD    ; Lowercase # L&   [2] LATIN SMALL LETTER U WITH DIAERESIS AND GRAVE..LATIN SMALL LETTER TURNED E",
text! "01DF          ; Lowercase # L&       LATIN SMALL LETTER A WITH DIAERESIS AND MACRON",
text! "01E1          ; Lowercase # L&       LATIN SMALL LETTER A WITH DOT ABOVE AND MACRON",
text! "01E3          ; Lowercase # L&       LATIN SMALL LETTER AE WITH MACRON",
text! "01E5          ; Lowercase # L&       LATIN SMALL LETTER G WITH STROKE",
text! "01E7          ; Lowercase # L&       LATIN SMALL LETTER G WITH CARON",
text! "01E9          ; Lowercase # L&       LATIN SMALL LETTER K WITH CARON",
text! "01EB          ; Lowercase # L&       LATIN SMALL LETTER O WITH OGONEK",
text! "01ED          ; Lowercase # L&       LATIN SMALL LETTER O WITH OGONEK AND MACRON",
text! "01EF..01F0    ; Lowercase # L&   [2] LATIN SMALL LETTER EZH WITH CARON..LATIN SMALL LETTER J WITH CARON",
text! "01F3          ; Lowercase # L&       LATIN SMALL LETTER DZ",
text! "01F5          ; Lowercase # L&       LATIN SMALL LETTER G WITH ACUTE",
text! "01F9          ; Lowercase # L&       LATIN SMALL LETTER N WITH GRAVE",
text! "01FB          ; Lowercase # L&       LATIN SMALL LETTER A WITH RING ABOVE AND ACUTE",
text! "01FD          ; Lowercase # L&       LATIN SMALL LETTER AE WITH ACUTE",
text! "01FF          ; Lowercase # L&       LATIN SMALL LETTER O WITH STROKE AND ACUTE",
text! "0201          ; Lowercase # L&       LATIN SMALL LETTER A WITH DOUBLE GRAVE",
text! "0203          ; Lowercase # L&       LATIN SMALL LETTER A WITH INVERTED BREVE",
text! "0205          ; Lowercase # L&       LATIN SMALL LETTER E WITH DOUBLE GRAVE",
text! "0207          ; Lowercase # L&       LATIN SMALL LETTER E WITH INVERTED BREVE",
text! "0209          ; Lowercase # L&       LATIN SMALL LETTER I WITH DOUBLE GRAVE",
text! "020B          ; Lowercase # L&       LATIN SMALL LETTER I WITH INVERTED BREVE",
text! "020D          ; Lowercase # L&       LATIN SMALL LETTER O WITH DOUBLE GRAVE",
text! "020F          ; Lowercase # L&       LATIN SMALL LETTER O WITH INVERTED BREVE",
text! "0211          ; Lowercase # L&       LATIN SMALL LETTER R WITH DOUBLE GRAVE",
text! "0213          ; Lowercase # L&       LATIN SMALL LETTER R WITH INVERTED BREVE",
text! "0215          ; Lowercase # L&       LATIN SMALL LETTER U WITH DOUBLE GRAVE",
text! "0217          ; Lowercase # L&       LATIN SMALL LETTER U WITH INVERTED BREVE"]

/-- lines 1601-1664 -/
def derivedCore25 : List Nat := [
text! "0219          ; Lowercase # L&       LATIN SMALL LETTER S WITH COMMA BELOW",
text! "021B          ; Lowercase # L&       LATIN SMALL LETTER T WITH COMMA BELOW",
text! "021D          ; Lowercase # L&       LATIN SMALL LETTER YOGH",
text! "021F          ; Lowercase # L&       LATIN SMALL LETTER H WITH CARON",
text! "0221          ; Lowercase # L&       LATIN SMALL LETTER D WITH CURL",
text! "0223          ; Lowercase # L&       LATIN SMALL LETTER OU",
text! "0225          ; Lowercase # L&       LATIN SMALL LETTER Z WITH HOOK",
text! "0227          ; Lowercase # L&       LATIN SMALL LETTER A WITH DOT ABOVE",
text! "0229          ; Lowercase # L&       LATIN SMALL LETTER E WITH CEDILLA",
text! "022B          ; Lowercase # L&       LATIN SMALL LETTER O WITH DIAERESIS AND MACRON",
text! "022D          ; Lowercase # L&       LATIN SMALL LETTER O WITH TILDE AND MACRON",
text! "022F          ; Lowercase # L&       LATIN SMALL LETTER O WITH DOT ABOVE",
text! "0231          ; Lowercase # L&       LATIN SMALL LETTER O WITH DOT ABOVE AND MACRON",
text! "0233..0239    ; Lowercase # L&   [7] LATIN SMALL LETTER Y WITH MACRON..LATIN SMALL LETTER QP DIGRAPH",
text! "023C          ; Lowercase # L&       LATIN SMALL LETTER C WITH STROKE",
text! "023F..0240    ; Lowercase # L&   [2] LATIN SMALL LETTER S WITH SWASH TAIL..LATIN SMALL LETTER Z WITH SWASH TAIL",
text! "0242          ; Lowercase # L&       LATIN SMALL LETTER GLOTTAL STOP",
text! "0247          ; Lowercase # L&       LATIN SMALL LETTER E WITH STROKE",
text! "0249          ; Lowercase # L&       LATIN SMALL LETTER J WITH STROKE",
text! "024B          ; Lowercase # L&       LATIN SMALL LETTER Q WITH HOOK TAIL",
text! "024D          ; Lowercase # L&       LATIN SMALL LETTER R WITH STROKE",
text! "024F..0293    ; Lowercase # L&  [69] LATIN SMALL LETTER Y WITH STROKE..LATIN SMALL LETTER EZH WITH CURL",
text! "0296..02AF    ; Lowercase # L&  [26] LATIN LETTER INVERTED GLOTTAL STOP..LATIN SMALL LETTER TURNED H WITH FISHHOOK AND TAIL",
text! "02B0..02B8    ; Lowercase # Lm   [9] MODIFIER LETTER SMALL H..MODIFIER LETTER SMALL Y",
text! "02C0..02C1    ; Lowercase # Lm   [2] MODIFIER LETTER GLOTTAL STOP..MODIFIER LETTER REVERSED GLOTTAL STOP",
text! "02E0..02E4    ; Lowercase # Lm   [5] MODIFIER LETTER SMALL GAMMA..MODIFIER LETTER SMALL REVERSED GLOTTAL STOP",
text! "0345          ; Lowercase # Mn       COMBINING GREEK YPOGEGRAMMENI",
text! "0371          ; Lowercase # L&       GREEK SMALL LETTER HETA",
text! "0373          ; Lowercase # L&       GREEK SMALL LETTER ARCHAIC SAMPI",
text! "0377          ; Lowercase # L&       GREEK SMALL LETTER PAMPHYLIAN DIGAMMA",
text! "037A          ; Lowercase # Lm       GREEK YPOGEGRAMMENI",
text! "037B..037D    ; Lowercase # L&   [3] GREEK SMALL REVERSED LUNATE SIGMA SYMBOL..GREEK SMALL REVERSED DOTTED LUNATE SIGMA SYMBOL",
text! "0390          ; Lowercase # L&       GREEK SMALL LETTER IOTA WITH DIALYTIKA AND TONOS",
text! "03AC..03CE    ; Lowercase # L&  [35] GREEK SMALL LETTER ALPHA WITH TONOS..GREEK SMALL LETTER OMEGA WITH TONOS",
text! "03D0..03D1    ; Lowercase # L&   [2] GREEK BETA SYMBOL..GREEK THETA SYMBOL",
text! "03D5..03D7    ; Lowercase # L&   [3] GREEK PHI SYMBOL..GREEK KAI SYMBOL",
text! "03D9          ; Lowercase # L&       GREEK SMALL LETTER ARCHAIC KOPPA",
text! "03DB          ; Lowercase # L&       GREEK SMALL LETTER STIGMA",
text! "03DD          ; Lowercase # L&       GREEK SMALL LETTER DIGAMMA",
text! "03DF          ; Lowercase # L&       GREEK SMALL LETTER KOPPA",
text! "03E1          ; Lowercase # L&       GREEK SMALL LETTER SAMPI",
text! "03E3          ; Lowercase # L&       COPTIC SMALL LETTER SHEI",
text! "03E5          ; Lowercase # L&       COPTIC SMALL LETTER FEI",
text! "03E7          ; Lowercase # L&       COPTIC SMALL LETTER KHEI",
text! "03E9          ; Lowercase # L&       COPTIC SMALL LETTER HORI",
text! "03EB          ; Lowercase # L&       COPTIC SMALL LETTER GANGIA",
text! "03ED          ; Lowercase # L&       COPTIC SMALL LETTER SHIMA",
text! "03EF..03F3    ; Lowercase # L&   [5] COPTIC SMALL LETTER DEI..GREEK LETTER YOT",
text! "03F5          ; Lowercase # L&       GREEK LUNATE EPSILON SYMBOL",
text! "03F8          ; Lowercase # L&       GREEK SMALL LETTER SHO",
text! "03FB..03FC    ; Lowercase # L&   [2] GREEK SMALL LETTER SAN..GREEK RHO WITH STROKE SYMBOL",
text! "0430..045F    ; Lowercase # L&  [48] CYRILLIC SMALL LETTER A..CYRILLIC SMALL LETTER DZHE",
text! "0461          ; Lowercase # L&       CYRILLIC SMALL LETTER OMEGA",
text! "0463          ; Lowercase # L&       CYRILLIC SMALL LETTER YAT",
text! "0465          ; Lowercase # L&       CYRILLIC SMALL LETTER IOTIFIED E",
text! "0467          ; Lowercase # L&       CYRILLIC SMALL LETTER LITTLE YUS",
text! "0469          ; Lowercase # L&       CYRILLIC SMALL LETTER IOTIFIED LITTLE YUS",
text! "046B          ; Lowercase # L&       CYRILLIC SMALL LETTER BIG YUS",
text! "046D          ; Lowercase # L&       CYRILLIC SMALL LETTER IOTIFIED BIG YUS",
text! "046F          ; Lowercase # L&       CYRILLIC SMALL LETTER KSI",
text! "0471          ; Lowercase # L&       CYRILLIC SMALL LETTER PSI",
text! "0473          ; Lowercase # L&       CYRILLIC SMALL LETTER FITA",
text! "0475          ; Lowercase # L&       CYRILLIC SMALL LETTER IZHITSA",
text! "0477          ; Lowercase # L&       CYRILLIC SMALL LETTER IZHITSA WITH DOUBLE GRAVE ACCENT"]

/-- lines 1665-1728 -/
def derivedCore26 : List Nat := [
text! "0479          ; Lowercase # L&       CYRILLIC SMALL LETTER UK",
text! "047B          ; Lowercase # L&       CYRILLIC SMALL LETTER ROUND OMEGA",
text! "047D          ; Lowercase # L&       CYRILLIC SMALL LETTER OMEGA WITH TITLO",
text! "047F          ; Lowercase # L&       CYRILLIC SMALL LETTER OT",
text! "0481          ; Lowercase # L&       CYRILLIC SMALL LETTER KOPPA",
text! "048B          ; Lowercase # L&       CYRILLIC SMALL LETTER SHORT I WITH TAIL",
text! "048D          ; Lowercase # L&       CYRILLIC SMALL LETTER SEMISOFT SIGN",
text! "048F          ; Lowercase # L&       CYRILLIC SMALL LETTER ER WITH TICK",
text! "0491          ; Lowercase # L&       CYRILLIC SMALL LETTER GHE WITH UPTURN",
text! "0493          ; Lowercase # L&       CYRILLIC SMALL LETTER GHE WITH STROKE",
text! "0495          ; Lowercase # L&       CYRILLIC SMALL LETTER GHE WITH MIDDLE HOOK",
text! "0497          ; Lowercase # L&       CYRILLIC SMALL LETTER ZHE WITH DESCENDER",
text! "0499          ; Lowercase # L&       CYRILLIC SMALL LETTER ZE WITH DESCENDER",
text! "049B          ; Lowercase # L&       CYRILLIC SMALL LETTER KA WITH DESCENDER",
text! "049D          ; Lowercase # L&       CYRILLIC SMALL LETTER KA WITH VERTICAL STROKE",
text! "049F          ; Lowercase # L&       CYRILLIC SMALL LETTER KA WITH STROKE",
text! "04A1          ; Lowercase # L&       CYRILLIC SMALL LETTER BASHKIR KA",
text! "04A3          ; Lowercase # L&       CYRILLIC SMALL LETTER EN WITH DESCENDER",
text! "04A5          ; Lowercase # L&       CYRILLIC SMALL LIGATURE EN GHE",
text! "04A7          ; Lowercase # L&       CYRILLIC SMALL LETTER PE WITH MIDDLE HOOK",
text! "04A9          ; Lowercase # L&       CYRILLIC SMALL LETTER ABKHASIAN HA",
text! "04AB          ; Lowercase # L&       CYRILLIC SMALL LETTER ES WITH DESCENDER",
text! "04AD          ; Lowercase # L&       CYRILLIC SMALL LETTER TE WITH DESCENDER",
text! "04AF          ; Lowercase # L&       CYRILLIC SMALL LETTER STRAIGHT U",
text! "04B1          ; Lowercase # L&       CYRILLIC SMALL LETTER STRAIGHT U WITH STROKE",
text! "04B3          ; Lowercase # L&       CYRILLIC SMALL LETTER HA WITH DESCENDER",
text! "04B5          ; Lowercase # L&       CYRILLIC SMALL LIGATURE TE TSE",
text! "04B7          ; Lowercase # L&       CYRILLIC SMALL LETTER CHE WITH DESCENDER",
text! "04B9          ; Lowercase # L&       CYRILLIC SMALL LETTER CHE WITH VERTICAL STROKE",
text! "04BB          ; Lowercase # L&       CYRILLIC SMALL LETTER SHHA",
text! "04BD          ; Lowercase # L&       CYRILLIC SMALL LETTER ABKHASIAN CHE",
text! "04BF          ; Lowercase # L&       CYRILLIC SMALL LETTER ABKHASIAN CHE WITH DESCENDER",
text! "04C2          ; Lowercase # L&       CYRILLIC SMALL LETTER ZHE WITH BREVE",
text! "04C4          ; Lowercase # L&       CYRILLIC SMALL LETTER KA WITH HOOK",
text! "04C6          ; Lowercase # L&       CYRILLIC SMALL LETTER EL WITH TAIL",
text! "04C8          ; Lowercase # L&       CYRILLIC SMALL LETTER EN WITH HOOK",
text! "04CA          ; Lowercase # L&       CYRILLIC SMALL LETTER EN WITH TAIL",
text! "04CC          ; Lowercase # L&       CYRILLIC SMALL LETTER KHAKASSIAN CHE",
text! "04CE..04CF    ; Lowercase # L&   [2] CYRILLIC SMALL LETTER EM WITH TAIL..CYRILLIC SMALL LETTER PALOCHKA",
text! "04D1          ; Lowercase # L&       CYRILLIC SMALL LETTER A WITH BREVE",
text! "04D3          ; Lowercase # L&       CYRILLIC SMALL LETTER A WITH DIAERESIS",
text! "04D5          ; Lowercase # L&       CYRILLIC SMALL LIGATURE A IE",
text! "04D7          ; Lowercase # L&       CYRILLIC SMALL LETTER IE WITH BREVE",
text! "04D9          ; Lowercase # L&       CYRILLIC SMALL LETTER SCHWA",
text! "04DB          ; Lowercase # L&       CYRILLIC SMALL LETTER SCHWA WITH DIAERESIS",
text! "04DD          ; Lowercase # L&       CYRILLIC SMALL LETTER ZHE WITH DIAERESIS",
text! "04DF          ; Lowercase # L&       CYRILLIC SMALL LETTER ZE WITH DIAERESIS",
text! "04E1          ; Lowercase # L&       CYRILLIC SMALL LETTER ABKHASIAN DZE",
text! "04E3          ; Lowercase # L&       CYRILLIC SMALL LETTER I WITH MACRON",
text! "04E5          ; Lowercase # L&       CYRILLIC SMALL LETTER I WITH DIAERESIS",
text! "04E7          ; Lowercase # L&       CYRILLIC SMALL LETTER O WITH DIAERESIS",
text! "04E9          ; Lowercase # L&       CYRILLIC SMALL LETTER BARRED O",
text! "04EB          ; Lowercase # L&       CYRILLIC SMALL LETTER BARRED O WITH DIAERESIS",
text! "04ED          ; Lowercase # L&       CYRILLIC SMALL LETTER E WITH DIAERESIS",
text! "04EF          ; Lowercase # L&       CYRILLIC SMALL LETTER U WITH MACRON",
text! "04F1          ; Lowercase # L&       CYRILLIC SMALL LETTER U WITH DIAERESIS",
text! "04F3          ; Lowercase # L&       CYRILLIC SMALL LETTER U WITH DOUBLE ACUTE",
text! "04F5          ; Lowercase # L&       CYRILLIC SMALL LETTER CHE WITH DIAERESIS",
text! "04F7          ; Lowercase # L&       CYRILLIC SMALL LETTER GHE WITH DESCENDER",
text! "04F9          ; Lowercase # L&       CYRILLIC SMALL LETTER YERU WITH DIAERESIS",
text! "04FB          ; Lowercase # L&       CYRILLIC SMALL LETTER GHE WITH STROKE AND HOOK",
text! "04FD          ; Lowercase # L&       CYRILLIC SMALL LETTER HA WITH HOOK",
text! "04FF          ; Lowercase # L&       CYRILLIC SMALL LETTER HA WITH STROKE",
text! "0501          ; Lowercase # L&       CYRILLIC SMALL LETTER KOMI DE"]

/-- lines 1729-1792 -/
def derivedCore27 : List Nat := [
text! "0503          ; Lowercase # L&       CYRILLIC SMALL LETTER KOMI DJE",
text! "0505          ; Lowercase # L&       CYRILLIC SMALL LETTER KOMI ZJE",
text! "0507          ; Lowercase # L&       CYRILLIC SMALL LETTER KOMI DZJE",
text! "0509          ; Lowercase # L&       CYRILLIC SMALL LETTER KOMI LJE",
text! "050B          ; Lowercase # L&       CYRILLIC SMALL LETTER KOMI NJE",
text! "050D          ; Lowercase # L&       CYRILLIC SMALL LETTER KOMI SJE",
text! "050F          ; Lowercase # L&       CYRILLIC SMALL LETTER KOMI TJE",
text! "0511          ; Lowercase # L&       CYRILLIC SMALL LETTER REVERSED ZE",
text! "0513          ; Lowercase # L&       CYRILLIC SMALL LETTER EL WITH HOOK",
text! "0515          ; Lowercase # L&       CYRILLIC SMALL LETTER LHA",
text! "0517          ; Lowercase # L&       CYRILLIC SMALL LETTER RHA",
text! "0519          ; Lowercase # L&       CYRILLIC SMALL LETTER YAE",
text! "051B          ; Lowercase # L&       CYRILLIC SMALL LETTER QA",
text! "051D          ; Lowercase # L&       CYRILLIC SMALL LETTER WE",
text! "051F          ; Lowercase # L&       CYRILLIC SMALL LETTER ALEUT KA",
text! "0521          ; Lowercase # L&       CYRILLIC SMALL LETTER EL WITH MIDDLE HOOK",
text! "0523          ; Lowercase # L&       CYRILLIC SMALL LETTER EN WITH MIDDLE HOOK",
text! "0525          ; Lowercase # L&       CYRILLIC SMALL LETTER PE WITH DESCENDER",
text! "0527          ; Lowercase # L&       CYRILLIC SMALL LETTER SHHA WITH DESCENDER",
text! "0529          ; Lowercase # L&       CYRILLIC SMALL LETTER EN WITH LEFT HOOK",
text! "052B          ; Lowercase # L&       CYRILLIC SMALL LETTER DZZHE",
text! "052D          ; Lowercase # L&       CYRILLIC SMALL LETTER DCHE",
text! "052F          ; Lowercase # L&       CYRILLIC SMALL LETTER EL WITH DESCENDER",
text! "0560..0588    ; Lowercase # L&  [41] ARMENIAN SMALL LETTER TURNED AYB..ARMENIAN SMALL LETTER YI WITH STROKE",
text! "10D0..10FA    ; Lowercase # L&  [43] GEORGIAN LETTER AN..GEORGIAN LETTER AIN",
text! "10FC          ; Lowercase # Lm       MODIFIER LETTER GEORGIAN NAR",
text! "10FD..10FF    ; Lowercase # L&   [3] GEORGIAN LETTER AEN..GEORGIAN LETTER LABIAL SIGN",
text! "13F8..13FD    ; Lowercase # L&   [6] CHEROKEE SMALL LETTER YE..CHEROKEE SMALL LETTER MV",
text! "1C80..1C88    ; Lowercase # L&   [9] CYRILLIC SMALL LETTER ROUNDED VE..CYRILLIC SMALL LETTER UNBLENDED UK",
text! "1C8A          ; Lowercase # L&       CYRILLIC SMALL LETTER TJE",
text! "1D00..1D2B    ; Lowercase # L&  [44] LATIN LETTER SMALL CAPITAL A..CYRILLIC LETTER SMALL CAPITAL EL",
text! "1D2C..1D6A    ; Lowercase # Lm  [63] MODIFIER LETTER CAPITAL A..GREEK SUBSCRIPT SMALL LETTER CHI",
text! "1D6B..1D77    ; Lowercase # L&  [13] LATIN SMALL LETTER UE..LATIN SMALL LETTER TURNED G",
text! "1D78          ; Lowercase # Lm       MODIFIER LETTER CYRILLIC EN",
text! "1D79..1D9A    ; Lowercase # L&  [34] LATIN SMALL LETTER INSULAR G..LATIN SMALL LETTER EZH WITH RETROFLEX HOOK",
text! "1D9B..1DBF    ; Lowercase # Lm  [37] MODIFIER LETTER SMALL TURNED ALPHA..MODIFIER LETTER SMALL THETA",
text! "1E01          ; Lowercase # L&       LATIN SMALL LETTER A WITH RING BELOW",
text! "1E03          ; Lowercase # L&       LATIN SMALL LETTER B WITH DOT ABOVE",
text! "1E05          ; Lowercase # L&       LATIN SMALL LETTER B WITH DOT BELOW",
text! "1E07          ; Lowercase # L&       LATIN SMALL LETTER B WITH LINE BELOW",
text! "1E09          ; Lowercase # L&       LATIN SMALL LETTER C WITH CEDILLA AND ACUTE",
text! "1E0B          ; Lowercase # L&       LATIN SMALL LETTER D WITH DOT ABOVE",
text! "1E0D          ; Lowercase # L&       LATIN SMALL LETTER D WITH DOT BELOW",
text! "1E0F          ; Lowercase # L&       LATIN SMALL LETTER D WITH LINE BELOW",
text! "1E11          ; Lowercase # L&       LATIN SMALL LETTER D WITH CEDILLA",
text! "1E13          ; Lowercase # L&       LATIN SMALL LETTER D WITH CIRCUMFLEX BELOW",
text! "1E15          ; Lowercase # L&       LATIN SMALL LETTER E WITH MACRON AND GRAVE",
text! "1E17          ; Lowercase # L&       LATIN SMALL LETTER E WITH MACRON AND ACUTE",
text! "1E19          ; Lowercase # L&       LATIN SMALL LETTER E WITH CIRCUMFLEX BELOW",
text! "1E1B          ; Lowercase # L&       LATIN SMALL LETTER E WITH TILDE BELOW",
text! "1E1D          ; Lowercase # L&       LATIN SMALL LETTER E WITH CEDILLA AND BREVE",
text! "1E1F          ; Lowercase # L&       LATIN SMALL LETTER F WITH DOT ABOVE",
text! "1E21          ; Lowercase # L&       LATIN SMALL LETTER G WITH MACRON",
text! "1E23          ; Lowercase # L&       LATIN SMALL LETTER H WITH DOT ABOVE",
text! "1E25          ; Lowercase # L&       LATIN SMALL LETTER H WITH DOT BELOW",
text! "1E27          ; Lowercase # L&       LATIN SMALL LETTER H WITH DIAERESIS",
text! "1E29          ; Lowercase # L&       LATIN SMALL LETTER H WITH CEDILLA",
text! "1E2B          ; Lowercase # L&       LATIN SMALL LETTER H WITH BREVE BELOW",
text! "1E2D          ; Lowercase # L&       LATIN SMALL LETTER I WITH TILDE BELOW",
text! "1E2F          ; Lowercase # L&       LATIN SMALL LETTER I WITH DIAERESIS AND ACUTE",
text! "1E31          ; Lowercase # L&       LATIN SMALL LETTER K WITH ACUTE",
text! "1E33          ; Lowercase # L&       LATIN SMALL LETTER K WITH DOT BELOW",
text! "1E35          ; Lowercase # L&       LATIN SMALL LETTER K WITH LINE BELOW",
text! "1E37          ; Lowercase # L&       LATIN SMALL LETTER L WITH DOT BELOW"]

/-- lines 1793-1856 -/
def derivedCore28 : List Nat := [
text! "1E39          ; Lowercase # L&       LATIN SMALL LETTER L WITH DOT BELOW AND MACRON",
text! "1E3B          ; Lowercase # L&       LATIN SMALL LETTER L WITH LINE BELOW",
text! "1E3D          ; Lowercase # L&       LATIN SMALL LETTER L WITH CIRCUMFLEX BELOW",
text! "1E3F          ; Lowercase # L&       LATIN SMALL LETTER M WITH ACUTE",
text! "1E41          ; Lowercase # L&       LATIN SMALL LETTER M WITH DOT ABOVE",
text! "1E43          ; Lowercase # L&       LATIN SMALL LETTER M WITH DOT BELOW",
text! "1E45          ; Lowercase # L&       LATIN SMALL LETTER N WITH DOT ABOVE",
text! "1E47          ; Lowercase # L&       LATIN SMALL LETTER N WITH DOT BELOW",
text! "1E49          ; Lowercase # L&       LATIN SMALL LETTER N WITH LINE BELOW",
text! "1E4B          ; Lowercase # L&       LATIN SMALL LETTER N WITH CIRCUMFLEX BELOW",
text! "1E4D          ; Lowercase # L&       LATIN SMALL LETTER O WITH TILDE AND ACUTE",
text! "1E4F          ; Lowercase # L&       LATIN SMALL LETTER O WITH TILDE AND DIAERESIS",
text! "1E51          ; Lowercase # L&       LATIN SMALL LETTER O WITH MACRON AND GRAVE",
text! "1E53          ; Lowercase # L&       LATIN SMALL LETTER O WITH MACRON AND ACUTE",
text! "1E55          ; Lowercase # L&       LATIN SMALL LETTER P WITH ACUTE",
text! "1E57          ; Lowercase # L&       LATIN SMALL LETTER P WITH DOT ABOVE",
text! "1E59          ; Lowercase # L&       LATIN SMALL LETTER R WITH DOT ABOVE",
text! "1E5B          ; Lowercase # L&       LATIN SMALL LETTER R WITH DOT BELOW",
text! "1E5D          ; Lowercase # L&       LATIN SMALL LETTER R WITH DOT BELOW AND MACRON",
text! "1E5F          ; Lowercase # L&       LATIN SMALL LETTER R WITH LINE BELOW",
text! "1E61          ; Lowercase # L&       LATIN SMALL LETTER S WITH DOT ABOVE",
text! "1E63          ; Lowercase # L&       LATIN SMALL LETTER S WITH DOT BELOW",
text! "1E65          ; Lowercase # L&       LATIN SMALL LETTER S WITH ACUTE AND DOT ABOVE",
text! "1E67          ; Lowercase # L&       LATIN SMALL LETTER S WITH CARON AND DOT ABOVE",
text! "1E69          ; Lowercase # L&       LATIN SMALL LETTER S WITH DOT BELOW AND DOT ABOVE",
text! "1E6B          ; Lowercase # L&       LATIN SMALL LETTER T WITH DOT ABOVE",
text! "1E6D          ; Lowercase # L&       LATIN SMALL LETTER T WITH DOT BELOW",
text! "1E6F          ; Lowercase # L&       LATIN SMALL LETTER T WITH LINE BELOW",
text! "1E71          ; Lowercase # L&       LATIN SMALL LETTER T WITH CIRCUMFLEX BELOW",
text! "1E73          ; Lowercase # L&       LATIN SMALL LETTER U WITH DIAERESIS BELOW",
text! "1E75          ; Lowercase # L&       LATIN SMALL LETTER U WITH TILDE BELOW",
text! "1E77          ; Lowercase # L&       LATIN SMALL LETTER U WITH CIRCUMFLEX BELOW",
text! "1E79          ; Lowercase # L&       LATIN SMALL LETTER U WITH TILDE AND ACUTE",
text! "1E7B          ; Lowercase # L&       LATIN SMALL LETTER U WITH MACRON AND DIAERESIS",
text! "1E7D          ; Lowercase # L&       LATIN SMALL LETTER V WITH TILDE",
text! "1E7F          ; Lowercase # L&       LATIN SMALL LETTER V WITH DOT BELOW",
text! "1E81          ; Lowercase # L&       LATIN SMALL LETTER W WITH GRAVE",
text! "1E83          ; Lowercase # L&       LATIN SMALL LETTER W WITH ACUTE",
text! "1E85          ; Lowercase # L&       LATIN SMALL LETTER W WITH DIAERESIS",
text! "1E87          ; Lowercase # L&       LATIN SMALL LETTER W WITH DOT ABOVE",
text! "1E89          ; Lowercase # L&       LATIN SMALL LETTER W WITH DOT BELOW",
text! "1E8B          ; Lowercase # L&       LATIN SMALL LETTER X WITH DOT ABOVE",
text! "1E8D          ; Lowercase # L&       LATIN SMALL LETTER X WITH DIAERESIS",
text! "1E8F          ; Lowercase # L&       LATIN SMALL LETTER Y WITH DOT ABOVE",
text! "1E91          ; Lowercase # L&       LATIN SMALL LETTER Z WITH CIRCUMFLEX",
text! "1E93          ; Lowercase # L&       LATIN SMALL LETTER Z WITH DOT BELOW",
text! "1E95..1E9D    ; Lowercase # L&   [9] LATIN SMALL LETTER Z WITH LINE BELOW..LATIN SMALL LETTER LONG S WITH HIGH STROKE",
text! "1E9F          ; Lowercase # L&       LATIN SMALL LETTER DELTA",
text! "1EA1          ; Lowercase # L&       LATIN SMALL LETTER A WITH DOT BELOW",
text! "1EA3          ; Lowercase # L&       LATIN SMALL LETTER A WITH HOOK ABOVE",
text! "1EA5          ; Lowercase # L&       LATIN SMALL LETTER A WITH CIRCUMFLEX AND ACUTE",
text! "1EA7          ; Lowercase # L&       LATIN SMALL LETTER A WITH CIRCUMFLEX AND GRAVE",
text! "1EA9          ; Lowercase # L&       LATIN SMALL LETTER A WITH CIRCUMFLEX AND HOOK ABOVE",
text! "1EAB          ; Lowercase # L&       LATIN SMALL LETTER A WITH CIRCUMFLEX AND TILDE",
text! "1EAD          ; Lowercase # L&       LATIN SMALL LETTER A WITH CIRCUMFLEX AND DOT BELOW",
text! "1EAF          ; Lowercase # L&       LATIN SMALL LETTER A WITH BREVE AND ACUTE",
text! "1EB1          ; Lowercase # L&       LATIN SMALL LETTER A WITH BREVE AND GRAVE",
text! "1EB3          ; Lowercase # L&       LATIN SMALL LETTER A WITH BREVE AND HOOK ABOVE",
text! "1EB5          ; Lowercase # L&       LATIN SMALL LETTER A WITH BREVE AND TILDE",
text! "1EB7          ; Lowercase # L&       LATIN SMALL LETTER A WITH BREVE AND DOT BELOW",
text! "1EB9          ; Lowercase # L&       LATIN SMALL LETTER E WITH DOT BELOW",
text! "1EBB          ; Lowercase # L&       LATIN SMALL LETTER E WITH HOOK ABOVE",
text! "1EBD          ; Lowercase # L&       LATIN SMALL LETTER E WITH TILDE",
text! "1EBF          ; Lowercase # L&       LATIN SMALL LETTER E WITH CIRCUMFLEX AND ACUTE"]

/-- lines 1857-1920 -/
def derivedCore29 : List Nat := [
text! "1EC1          ; Lowercase # L&       LATIN SMALL LETTER E WITH CIRCUMFLEX AND GRAVE",
text! "1EC3          ; Lowercase # L&       LATIN SMALL LETTER E WITH CIRCUMFLEX AND HOOK ABOVE",
text! "1EC5          ; Lowercase # L&       LATIN SMALL LETTER E WITH CIRCUMFLEX AND TILDE",
text! "1EC7          ; Lowercase # L&       LATIN SMALL LETTER E WITH CIRCUMFLEX AND DOT BELOW",
text! "1EC9          ; Lowercase # L&       LATIN SMALL LETTER I WITH HOOK ABOVE",
text! "1ECB          ; Lowercase # L&       LATIN SMALL LETTER I WITH DOT BELOW",
text! "1ECD          ; Lowercase # L&       LATIN SMALL LETTER O WITH DOT BELOW",
text! "1ECF          ; Lowercase # L&       LATIN SMALL LETTER O WITH HOOK ABOVE",
text! "1ED1          ; Lowercase # L&       LATIN SMALL LETTER O WITH CIRCUMFLEX AND ACUTE",
text! "1ED3          ; Lowercase # L&       LATIN SMALL LETTER O WITH CIRCUMFLEX AND GRAVE",
text! "1ED5          ; Lowercase # L&       LATIN SMALL LETTER O WITH CIRCUMFLEX AND HOOK ABOVE",
text! "1ED7          ; Lowercase # L&       LATIN SMALL LETTER O WITH CIRCUMFLEX AND TILDE",
text! "1ED9          ; Lowercase # L&       LATIN SMALL LETTER O WITH CIRCUMFLEX AND DOT BELOW",
text! "1EDB          ; Lowercase # L&       LATIN SMALL LETTER O WITH HORN AND ACUTE",
text! "1EDD          ; Lowercase # L&       LATIN SMALL LETTER O WITH HORN AND GRAVE",
text! "1EDF          ; Lowercase # L&       LATIN SMALL LETTER O WITH HORN AND HOOK ABOVE",
text! "1EE1          ; Lowercase # L&       LATIN SMALL LETTER O WITH HORN AND TILDE",
text! "1EE3          ; Lowercase # L&       LATIN SMALL LETTER O WITH HORN AND DOT BELOW",
text! "1EE5          ; Lowercase # L&       LATIN SMALL LETTER U WITH DOT BELOW",
text! "1EE7          ; Lowercase # L&       LATIN SMALL LETTER U WITH HOOK ABOVE",
text! "1EE9          ; Lowercase # L&       LATIN SMALL LETTER U WITH HORN AND ACUTE",
text! "1EEB          ; Lowercase # L&       LATIN SMALL LETTER U WITH HORN AND GRAVE",
text! "1EED          ; Lowercase # L&       LATIN SMALL LETTER U WITH HORN AND HOOK ABOVE",
text! "1EEF          ; Lowercase # L&       LATIN SMALL LETTER U WITH HORN AND TILDE",
text! "1EF1          ; Lowercase # L&       LATIN SMALL LETTER U WITH HORN AND DOT BELOW",
text! "1EF3          ; Lowercase # L&       LATIN SMALL LETTER Y WITH GRAVE",
text! "1EF5          ; Lowercase # L&       LATIN SMALL LETTER Y WITH DOT BELOW",
text! "1EF7          ; Lowercase # L&       LATIN SMALL LETTER Y WITH HOOK ABOVE",
text! "1EF9          ; Lowercase # L&       LATIN SMALL LETTER Y WITH TILDE",
text! "1EFB          ; Lowercase # L&       LATIN SMALL LETTER MIDDLE-WELSH LL",
text! "1EFD          ; Lowercase # L&       LATIN SMALL LETTER MIDDLE-WELSH V",
text! "1EFF..1F07    ; Lowercase # L&   [9] LATIN SMALL LETTER Y WITH LOOP..GREEK SMALL LETTER ALPHA WITH DASIA AND PERISPOMENI",
text! "1F10..1F15    ; Lowercase # L&   [6] GREEK SMALL LETTER EPSILON WITH PSILI..GREEK SMALL LETTER EPSILON WITH DASIA AND OXIA",
text! "1F20..1F27    ; Lowercase # L&   [8] GREEK SMALL LETTER ETA WITH PSILI..GREEK SMALL LETTER ETA WITH DASIA AND PERISPOMENI",
text! "1F30..1F37    ; Lowercase # L&   [8] GREEK SMALL LETTER IOTA WITH PSILI..GREEK SMALL LETTER IOTA WITH DASIA AND PERISPOMENI",
text! "1F40..1F45    ; Lowercase # L&   [6] GREEK SMALL LETTER OMICRON WITH PSILI..GREEK SMALL LETTER OMICRON WITH DASIA AND OXIA",
text! "1F50..1F57    ; Lowercase # L&   [8] GREEK SMALL LETTER UPSILON WITH PSILI..GREEK SMALL LETTER UPSILON WITH DASIA AND PERISPOMENI",
text! "1F60..1F67    ; Lowercase # L&   [8] GREEK SMALL LETTER OMEGA WITH PSILI..GREEK SMALL LETTER OMEGA WITH DASIA AND PERISPOMENI",
text! "1F70..1F7D    ; Lowercase # L&  [14] GREEK SMALL LETTER ALPHA WITH VARIA..GREEK SMALL LETTER OMEGA WITH OXIA",
text! "1F80..1F87    ; Lowercase # L&   [8] GREEK SMALL LETTER ALPHA WITH PSILI AND YPOGEGRAMMENI..GREEK SMALL LETTER ALPHA WITH DASIA AND PERISPOMENI AND YPOGEGRAMMENI",
text! "1F90..1F97    ; Lowercase # L&   [8] GREEK SMALL LETTER ETA WITH PSILI AND YPOGEGRAMMENI..GREEK SMALL LETTER ETA WITH DASIA AND PERISPOMENI AND YPOGEGRAMMENI",
text! "1FA0..1FA7    ; Lowercase # L&   [8] GREEK SMALL LETTER OMEGA WITH PSILI AND YPOGEGRAMMENI..GREEK SMALL LETTER OMEGA WITH DASIA AND PERISPOMENI AND YPOGEGRAMMENI",
text! "1FB0..1FB4    ; Lowercase # L&   [5] GREEK SMALL LETTER ALPHA WITH VRACHY..GREEK SMALL LETTER ALPHA WITH OXIA AND YPOGEGRAMMENI",
text! "1FB6..1FB7    ; Lowercase # L&   [2] GREEK SMALL LETTER ALPHA WITH PERISPOMENI..GREEK SMALL LETTER ALPHA WITH PERISPOMENI AND YPOGEGRAMMENI",
text! "1FBE          ; Lowercase # L&       GREEK PROSGEGRAMMENI",
text! "1FC2..1FC4    ; Lowercase # L&   [3] GREEK SMALL LETTER ETA WITH VARIA AND YPOGEGRAMMENI..GREEK SMALL LETTER ETA WITH OXIA AND YPOGEGRAMMENI",
text! "1FC6..1FC7    ; Lowercase # L&   [2] GREEK SMALL LETTER ETA WITH PERISPOMENI..GREEK SMALL LETTER ETA WITH PERISPOMENI AND YPOGEGRAMMENI",
text! "1FD0..1FD3    ; Lowercase # L&   [4] GREEK SMALL LETTER IOTA WITH VRACHY..GREEK SMALL LETTER IOTA WITH DIALYTIKA AND OXIA",
text! "1FD6..1FD7    ; Lowercase # L&   [2] GREEK SMALL LETTER IOTA WITH PERISPOMENI..GREEK SMALL LETTER IOTA WITH DIALYTIKA AND PERISPOMENI",
text! "1FE0..1FE7    ; Lowercase # L&   [8] GREEK SMALL LETTER UPSILON WITH VRACHY..GREEK SMALL LETTER UPSILON WITH DIALYTIKA AND PERISPOMENI",
text! "1FF2..1FF4    ; Lowercase # L&   [3] GREEK SMALL LETTER OMEGA WITH VARIA AND YPOGEGRAMMENI..GREEK SMALL LETTER OMEGA WITH OXIA AND YPOGEGRAMMENI",
text! "1FF6..1FF7    ; Lowercase # L&   [2] GREEK SMALL LETTER OMEGA WITH PERISPOMENI..GREEK SMALL LETTER OMEGA WITH PERISPOMENI AND YPOGEGRAMMENI",
text! "2071          ; Lowercase # Lm       SUPERSCRIPT LATIN SMALL LETTER I",
text! "207F          ; Lowercase # Lm       SUPERSCRIPT LATIN SMALL LETTER N",
text! "2090..209C    ; Lowercase # Lm  [13] LATIN SUBSCRIPT SMALL LETTER A..LATIN SUBSCRIPT SMALL LETTER T",
text! "210A          ; Lowercase # L&       SCRIPT SMALL G",
text! "210E..210F    ; Lowercase # L&   [2] PLANCK CONSTANT..PLANCK CONSTANT OVER TWO PI",
text! "2113          ; Lowercase # L&       SCRIPT SMALL L",
text! "212F          ; Lowercase # L&       SCRIPT SMALL E",
text! "2134          ; Lowercase # L&       SCRIPT SMALL O",
text! "2139          ; Lowercase # L&       INFORMATION SOURCE",
text! "213C..213D    ; Lowercase # L&   [2] DOUBLE-STRUCK SMALL PI..DOUBLE-STRUCK SMALL GAMMA",
text! "2146..2149    ; Lowercase # L&   [4] DOUBLE-STRUCK ITALIC SMALL D..DOUBLE-STRUCK ITALIC SMALL J",
text! "214E          ; Lowercase # L&       TURNED SMALL F"]

/-- lines 1921-1984 -/
def derivedCore30 : List Nat := [
text! "2170..217F    ; Lowercase # Nl  [16] SMALL ROMAN NUMERAL ONE..SMALL ROMAN NUMERAL ONE THOUSAND",
text! "2184          ; Lowercase # L&       LATIN SMALL LETTER REVERSED C",
text! "24D0..24E9    ; Lowercase # So  [26] CIRCLED LATIN SMALL LETTER A..CIRCLED LATIN SMALL LETTER Z",
text! "2C30..2C5F    ; Lowercase # L&  [48] GLAGOLITIC SMALL LETTER AZU..GLAGOLITIC SMALL LETTER CAUDATE CHRIVI",
text! "2C61          ; Lowercase # L&       LATIN SMALL LETTER L WITH DOUBLE BAR",
text! "2C65..2C66    ; Lowercase # L&   [2] LATIN SMALL LETTER A WITH STROKE..LATIN SMALL LETTER T WITH DIAGONAL STROKE",
text! "2C68          ; Lowercase # L&       LATIN SMALL LETTER H WITH DESCENDER",
text! "2C6A          ; Lowercase # L&       LATIN SMALL LETTER K WITH DESCENDER",
text! "2C6C          ; Lowercase # L&       LATIN SMALL LETTER Z WITH DESCENDER",
text! "2C71          ; Lowercase # L&       LATIN SMALL LETTER V WITH RIGHT HOOK",
text! "2C73..2C74    ; Lowercase # L&   [2] LATIN SMALL LETTER W WITH HOOK..LATIN SMALL LETTER V WITH CURL",
text! "2C76..2C7B    ; Lowercase # L&   [6] LATIN SMALL LETTER HALF H..LATIN LETTER SMALL CAPITAL TURNED E",
text! "2C7C..2C7D    ; Lowercase # Lm   [2] LATIN SUBSCRIPT SMALL LETTER J..MODIFIER LETTER CAPITAL V",
text! "2C81          ; Lowercase # L&       COPTIC SMALL LETTER ALFA",
text! "2C83          ; Lowercase # L&       COPTIC SMALL LETTER VIDA",
text! "2C85          ; Lowercase # L&       COPTIC SMALL LETTER GAMMA",
text! "2C87          ; Lowercase # L&       COPTIC SMALL LETTER DALDA",
text! "2C89          ; Lowercase # L&       COPTIC SMALL LETTER EIE",
text! "2C8B          ; Lowercase # L&       COPTIC SMALL LETTER SOU",
text! "2C8D          ; Lowercase # L&       COPTIC SMALL LETTER ZATA",
text! "2C8F          ; Lowercase # L&       COPTIC SMALL LETTER HATE",
text! "2C91          ; Lowercase # L&       COPTIC SMALL LETTER THETHE",
text! "2C93          ; Lowercase # L&       COPTIC SMALL LETTER IAUDA",
text! "2C95          ; Lowercase # L&       COPTIC SMALL LETTER KAPA",
text! "2C97          ; Lowercase # L&       COPTIC SMALL LETTER LAULA",
text! "2C99          ; Lowercase # L&       COPTIC SMALL LETTER MI",
text! "2C9B          ; Lowercase # L&       COPTIC SMALL LETTER NI",
text! "2C9D          ; Lowercase # L&       COPTIC SMALL LETTER KSI",
text! "2C9F          ; Lowercase # L&       COPTIC SMALL LETTER O",
text! "2CA1          ; Lowercase # L&       COPTIC SMALL LETTER PI",
text! "2CA3          ; Lowercase # L&       COPTIC SMALL LETTER RO",
text! "2CA5          ; Lowercase # L&       COPTIC SMALL LETTER SIMA",
text! "2CA7          ; Lowercase # L&       COPTIC SMALL LETTER TAU",
text! "2CA9          ; Lowercase # L&       COPTIC SMALL LETTER UA",
text! "2CAB          ; Lowercase # L&       COPTIC SMALL LETTER FI",
text! "2CAD          ; Lowercase # L&       COPTIC SMALL LETTER KHI",
text! "2CAF          ; Lowercase # L&       COPTIC SMALL LETTER PSI",
text! "2CB1          ; Lowercase # L&       COPTIC SMALL LETTER OOU",
text! "2CB3          ; Lowercase # L&       COPTIC SMALL LETTER DIALECT-P ALEF",
text! "2CB5          ; Lowercase # L&       COPTIC SMALL LETTER OLD COPTIC AIN",
text! "2CB7          ; Lowercase # L&       COPTIC SMALL LETTER CRYPTOGRAMMIC EIE",
text! "2CB9          ; Lowercase # L&       COPTIC SMALL LETTER DIALECT-P KAPA",
text! "2CBB          ; Lowercase # L&       COPTIC SMALL LETTER DIALECT-P NI",
text! "2CBD          ; Lowercase # L&       COPTIC SMALL LETTER CRYPTOGRAMMIC NI",
text! "2CBF          ; Lowercase # L&       COPTIC SMALL LETTER OLD COPTIC OOU",
text! "2CC1          ; Lowercase # L&       COPTIC SMALL LETTER SAMPI",
text! "2CC3          ; Lowercase # L&       COPTIC SMALL LETTER CROSSED SHEI",
text! "2CC5          ; Lowercase # L&       COPTIC SMALL LETTER OLD COPTIC SHEI",
text! "2CC7          ; Lowercase # L&       COPTIC SMALL LETTER OLD COPTIC ESH",
text! "2CC9          ; Lowercase # L&       COPTIC SMALL LETTER AKHMIMIC KHEI",
text! "2CCB          ; Lowercase # L&       COPTIC SMALL LETTER DIALECT-P HORI",
text! "2CCD          ; Lowercase # L&       COPTIC SMALL LETTER OLD COPTIC HORI",
text! "2CCF          ; Lowercase # L&       COPTIC SMALL LETTER OLD COPTIC HA",
text! "2CD1          ; Lowercase # L&       COPTIC SMALL LETTER L-SHAPED HA",
text! "2CD3          ; Lowercase # L&       COPTIC SMALL LETTER OLD COPTIC HEI",
text! "2CD5          ; Lowercase # L&       COPTIC SMALL LETTER OLD COPTIC HAT",
text! "2CD7          ; Lowercase # L&       COPTIC SMALL LETTER OLD COPTIC GANGIA",
text! "2CD9          ; Lowercase # L&       COPTIC SMALL LETTER OLD COPTIC DJA",
text! "2CDB          ; Lowercase # L&       COPTIC SMALL LETTER OLD COPTIC SHIMA",
text! "2CDD          ; Lowercase # L&       COPTIC SMALL LETTER OLD NUBIAN SHIMA",
text! "2CDF          ; Lowercase # L&       COPTIC SMALL LETTER OLD NUBIAN NGI",
text! "2CE1          ; Lowercase # L&       COPTIC SMALL LETTER OLD NUBIAN NYI",
text! "2CE3..2CE4    ; Lowercase # L&   [2] COPTIC SMALL LETTER OLD NUBIAN WAU..COPTIC SYMBOL KAI",
text! "2CEC          ; Lowercase # L&       COPTIC SMALL LETTER CRYPTOGRAMMIC SHEI"]

/-- lines 1985-2048 -/
def derivedCore31 : List Nat := [
text! "2CEE          ; Lowercase # L&       COPTIC SMALL LETTER CRYPTOGRAMMIC GANGIA",
text! "2CF3          ; Lowercase # L&       COPTIC SMALL LETTER BOHAIRIC KHEI",
text! "2D00..2D25    ; Lowercase # L&  [38] GEORGIAN SMALL LETTER AN..GEORGIAN SMALL LETTER HOE",
text! "2D27          ; Lowercase # L&       GEORGIAN SMALL LETTER YN",
text! "2D2D          ; Lowercase # L&       GEORGIAN SMALL LETTER AEN",
text! "A641          ; Lowercase # L&       CYRILLIC SMALL LETTER ZEMLYA",
text! "A643          ; Lowercase # L&       CYRILLIC SMALL LETTER DZELO",
text! "A645          ; Lowercase # L&       CYRILLIC SMALL LETTER REVERSED DZE",
text! "A647          ; Lowercase # L&       CYRILLIC SMALL LETTER IOTA",
text! "A649          ; Lowercase # L&       CYRILLIC SMALL LETTER DJERV",
text! "A64B          ; Lowercase # L&       CYRILLIC SMALL LETTER MONOGRAPH UK",
text! "A64D          ; Lowercase # L&       CYRILLIC SMALL LETTER BROAD OMEGA",
text! "A64F          ; Lowercase # L&       CYRILLIC SMALL LETTER NEUTRAL YER",
text! "A651          ; Lowercase # L&       CYRILLIC SMALL LETTER YERU WITH BACK YER",
text! "A653          ; Lowercase # L&       CYRILLIC SMALL LETTER IOTIFIED YAT",
text! "A655          ; Lowercase # L&       CYRILLIC SMALL LETTER REVERSED YU",
text! "A657          ; Lowercase # L&       CYRILLIC SMALL LETTER IOTIFIED A",
text! "A659          ; Lowercase # L&       CYRILLIC SMALL LETTER CLOSED LITTLE YUS",
text! "A65B          ; Lowercase # L&       CYRILLIC SMALL LETTER BLENDED YUS",
text! "A65D          ; Lowercase # L&       CYRILLIC SMALL LETTER IOTIFIED CLOSED LITTLE YUS",
text! "A65F          ; Lowercase # L&       CYRILLIC SMALL LETTER YN",
text! "A661          ; Lowercase # L&       CYRILLIC SMALL LETTER REVERSED TSE",
text! "A663          ; Lowercase # L&       CYRILLIC SMALL LETTER SOFT DE",
text! "A665          ; Lowercase # L&       CYRILLIC SMALL LETTER SOFT EL",
text! "A667          ; Lowercase # L&       CYRILLIC SMALL LETTER SOFT EM",
text! "A669          ; Lowercase # L&       CYRILLIC SMALL LETTER MONOCULAR O",
text! "A66B          ; Lowercase # L&       CYRILLIC SMALL LETTER BINOCULAR O",
text! "A66D          ; Lowercase # L&       CYRILLIC SMALL LETTER DOUBLE MONOCULAR O",
text! "A681          ; Lowercase # L&       CYRILLIC SMALL LETTER DWE",
text! "A683          ; Lowercase # L&       CYRILLIC SMALL LETTER DZWE",
text! "A685          ; Lowercase # L&       CYRILLIC SMALL LETTER ZHWE",
text! "A687          ; Lowercase # L&       CYRILLIC SMALL LETTER CCHE",
text! "A689          ; Lowercase # L&       CYRILLIC SMALL LETTER DZZE",
text! "A68B          ; Lowercase # L&       CYRILLIC SMALL LETTER TE WITH MIDDLE HOOK",
text! "A68D          ; Lowercase # L&       CYRILLIC SMALL LETTER TWE",
text! "A68F          ; Lowercase # L&       CYRILLIC SMALL LETTER TSWE",
text! "A691          ; Lowercase # L&       CYRILLIC SMALL LETTER TSSE",
text! "A693          ; Lowercase # L&       CYRILLIC SMALL LETTER TCHE",
text! "A695          ; Lowercase # L&       CYRILLIC SMALL LETTER HWE",
text! "A697          ; Lowercase # L&       CYRILLIC SMALL LETTER SHWE",
text! "A699          ; Lowercase # L&       CYRILLIC SMALL LETTER DOUBLE O",
text! "A69B          ; Lowercase # L&       CYRILLIC SMALL LETTER CROSSED O",
text! "A69C..A69D    ; Lowercase # Lm   [2] MODIFIER LETTER CYRILLIC HARD SIGN..MODIFIER LETTER CYRILLIC SOFT SIGN",
text! "A723          ; Lowercase # L&       LATIN SMALL LETTER EGYPTOLOGICAL ALEF",
text! "A725          ; Lowercase # L&       LATIN SMALL LETTER EGYPTOLOGICAL AIN",
text! "A727          ; Lowercase # L&       LATIN SMALL LETTER HENG",
text! "A729          ; Lowercase # L&       LATIN SMALL LETTER TZ",
text! "A72B          ; Lowercase # L&       LATIN SMALL LETTER TRESILLO",
text! "A72D          ; Lowercase # L&       LATIN SMALL LETTER CUATRILLO",
text! "A72F..A731    ; Lowercase # L&   [3] LATIN SMALL LETTER CUATRILLO WITH COMMA..LATIN LETTER SMALL CAPITAL S",
text! "A733          ; Lowercase # L&       LATIN SMALL LETTER AA",
text! "A735          ; Lowercase # L&       LATIN SMALL LETTER AO",
text! "A737          ; Lowercase # L&       LATIN SMALL LETTER AU",
text! "A739          ; Lowercase # L&       LATIN SMALL LETTER AV",
text! "A73B          ; Lowercase # L&       LATIN SMALL LETTER AV WITH HORIZONTAL BAR",
text! "A73D          ; Lowercase # L&       LATIN SMALL LETTER AY",
text! "A73F          ; Lowercase # L&       LATIN SMALL LETTER REVERSED C WITH DOT",
text! "A741          ; Lowercase # L&       LATIN SMALL LETTER K WITH STROKE",
text! "A743          ; Lowercase # L&       LATIN SMALL LETTER K WITH DIAGONAL STROKE",
text! "A745          ; Lowercase # L&       LATIN SMALL LETTER K WITH STROKE AND DIAGONAL STROKE",
text! "A747          ; Lowercase # L&       LATIN SMALL LETTER BROKEN L",
text! "A749          ; Lowercase # L&       LATIN SMALL LETTER L WITH HIGH STROKE",
text! "A74B          ; Lowercase # L&       LATIN SMALL LETTER O WITH LONG STROKE OVERLAY",
text! "A74D          ; Lowercase # L&       LATIN SMALL LETTER O WITH LOOP"]

/-- lines 2049-2112 -/
def derivedCore32 : List Nat := [
text! "A74F          ; Lowercase # L&       LATIN SMALL LETTER OO",
text! "A751          ; Lowercase # L&       LATIN SMALL LETTER P WITH STROKE THROUGH DESCENDER",
text! "A753          ; Lowercase # L&       LATIN SMALL LETTER P WITH FLOURISH",
text! "A755          ; Lowercase # L&       LATIN SMALL LETTER P WITH SQUIRREL TAIL",
text! "A757          ; Lowercase # L&       LATIN SMALL LETTER Q WITH STROKE THROUGH DESCENDER",
text! "A759          ; Lowercase # L&       LATIN SMALL LETTER Q WITH DIAGONAL STROKE",
text! "A75B          ; Lowercase # L&       LATIN SMALL LETTER R ROTUNDA",
text! "A75D          ; Lowercase # L&       LATIN SMALL LETTER RUM ROTUNDA",
text! "A75F          ; Lowercase # L&       LATIN SMALL LETTER V WITH DIAGONAL STROKE",
text! "A761          ; Lowercase # L&       LATIN SMALL LETTER VY",
text! "A763          ; Lowercase # L&       LATIN SMALL LETTER VISIGOTHIC Z",
text! "A765          ; Lowercase # L&       LATIN SMALL LETTER THORN WITH STROKE",
text! "A767          ; Lowercase # L&       LATIN SMALL LETTER THORN WITH STROKE THROUGH DESCENDER",
text! "A769          ; Lowercase # L&       LATIN SMALL LETTER VEND",
text! "A76B          ; Lowercase # L&       LATIN SMALL LETTER ET",
text! "A76D          ; Lowercase # L&       LATIN SMALL LETTER IS",
text! "A76F          ; Lowercase # L&       LATIN SMALL LETTER CON",
text! "A770          ; Lowercase # Lm       MODIFIER LETTER US",
text! "A771..A778    ; Lowercase # L&   [8] LATIN SMALL LETTER DUM..LATIN SMALL LETTER UM",
text! "A77A          ; Lowercase # L&       LATIN SMALL LETTER INSULAR D",
text! "A77C          ; Lowercase # L&       LATIN SMALL LETTER INSULAR F",
text! "A77F          ; Lowercase # L&       LATIN SMALL LETTER TURNED INSULAR G",
text! "A781          ; Lowercase # L&       LATIN SMALL LETTER TURNED L",
text! "A783          ; Lowercase # L&       LATIN SMALL LETTER INSULAR R",
text! "A785          ; Lowercase # L&       LATIN SMALL LETTER INSULAR S",
text! "A787          ; Lowercase # L&       LATIN SMALL LETTER INSULAR T",
text! "A78C          ; Lowercase # L&       LATIN SMALL LETTER SALTILLO",
text! "A78E          ; Lowercase # L&       LATIN SMALL LETTER L WITH RETROFLEX HOOK AND BELT",
text! "A791          ; Lowercase # L&       LATIN SMALL LETTER N WITH DESCENDER",
text! "A793..A795    ; Lowercase # L&   [3] LATIN SMALL LETTER C WITH BAR..LATIN SMALL LETTER H WITH PALATAL HOOK",
text! "A797          ; Lowercase # L&       LATIN SMALL LETTER B WITH FLOURISH",
text! "A799          ; Lowercase # L&       LATIN SMALL LETTER F WITH STROKE",
text! "A79B          ; Lowercase # L&       LATIN SMALL LETTER VOLAPUK AE",
text! "A79D          ; Lowercase # L&       LATIN SMALL LETTER VOLAPUK OE",
text! "A79F          ; Lowercase # L&       LATIN SMALL LETTER VOLAPUK UE",
text! "A7A1          ; Lowercase # L&       LATIN SMALL LETTER G WITH OBLIQUE STROKE",
text! "A7A3          ; Lowercase # L&       LATIN SMALL LETTER K WITH OBLIQUE STROKE",
text! "A7A5          ; Lowercase # L&       LATIN SMALL LETTER N WITH OBLIQUE STROKE",
text! "A7A7          ; Lowercase # L&       LATIN SMALL LETTER R WITH OBLIQUE STROKE",
text! "A7A9          ; Lowercase # L&       LATIN SMALL LETTER S WITH OBLIQUE STROKE",
text! "A7AF          ; Lowercase # L&       LATIN LETTER SMALL CAPITAL Q",
text! "A7B5          ; Lowercase # L&       LATIN SMALL LETTER BETA",
text! "A7B7          ; Lowercase # L&       LATIN SMALL LETTER OMEGA",
text! "A7B9          ; Lowercase # L&       LATIN SMALL LETTER U WITH STROKE",
text! "A7BB          ; Lowercase # L&       LATIN SMALL LETTER GLOTTAL A",
text! "A7BD          ; Lowercase # L&       LATIN SMALL LETTER GLOTTAL I",
text! "A7BF          ; Lowercase # L&       LATIN SMALL LETTER GLOTTAL U",
text! "A7C1          ; Lowercase # L&       LATIN SMALL LETTER OLD POLISH O",
text! "A7C3          ; Lowercase # L&       LATIN SMALL LETTER ANGLICANA W",
text! "A7C8          ; Lowercase # L&       LATIN SMALL LETTER D WITH SHORT STROKE OVERLAY",
text! "A7CA          ; Lowercase # L&       LATIN SMALL LETTER S WITH SHORT STROKE OVERLAY",
text! "A7CD          ; Lowercase # L&       LATIN SMALL LETTER S WITH DIAGONAL STROKE",
text! "A7CF          ; Lowercase # L&       LATIN SMALL LETTER PHARYNGEAL VOICED FRICATIVE",
text! "A7D1          ; Lowercase # L&       LATIN SMALL LETTER CLOSED INSULAR G",
text! "A7D3          ; Lowercase # L&       LATIN SMALL LETTER DOUBLE THORN",
text! "A7D5          ; Lowercase # L&       LATIN SMALL LETTER DOUBLE WYNN",
text! "A7D7          ; Lowercase # L&       LATIN SMALL LETTER MIDDLE SCOTS S",
text! "A7D9          ; Lowercase # L&       LATIN SMALL LETTER SIGMOID S",
text! "A7DB          ; Lowercase # L&       LATIN SMALL LETTER LAMBDA",
text! "A7F1..A7F4    ; Lowercase # Lm   [4] MODIFIER LETTER CAPITAL S..MODIFIER LETTER CAPITAL Q",
text! "A7F6          ; Lowercase # L&       LATIN SMALL LETTER REVERSED HALF H",
text! "A7F8..A7F9    ; Lowercase # Lm   [2] MODIFIER LETTER CAPITAL H WITH STROKE..MODIFIER LETTER SMALL LIGATURE OE",
text! "A7FA          ; Lowercase # L&       LATIN LETTER SMALL CAPITAL TURNED M",
text! "AB30..AB5A    ; Lowercase # L&  [43] LATIN SMALL LETTER BARRED ALPHA..LATIN SMALL LETTER Y WITH SHORT RIGHT LEG"]

/-- lines 2113-2176 -/
def derivedCore33 : List Nat := [
text! "AB5C..AB5F    ; Lowercase # Lm   [4] MODIFIER LETTER SMALL HENG..MODIFIER LETTER SMALL U WITH LEFT HOOK",
text! "AB60..AB68    ; Lowercase # L&   [9] LATIN SMALL LETTER SAKHA YAT..LATIN SMALL LETTER TURNED R WITH MIDDLE TILDE",
text! "AB69          ; Lowercase # Lm       MODIFIER LETTER SMALL TURNED W",
text! "AB70..ABBF    ; Lowercase # L&  [80] CHEROKEE SMALL LETTER A..CHEROKEE SMALL LETTER YA",
text! "FB00..FB06    ; Lowercase # L&   [7] LATIN SMALL LIGATURE FF..LATIN SMALL LIGATURE ST",
text! "FB13..FB17    ; Lowercase # L&   [5] ARMENIAN SMALL LIGATURE MEN NOW..ARMENIAN SMALL LIGATURE MEN XEH",
text! "FF41..FF5A    ; Lowercase # L&  [26] FULLWIDTH LATIN SMALL LETTER A..FULLWIDTH LATIN SMALL LETTER Z",
text! "10428..1044F  ; Lowercase # L&  [40] DESERET SMALL LETTER LONG I..DESERET SMALL LETTER EW",
text! "104D8..104FB  ; Lowercase # L&  [36] OSAGE SMALL LETTER A..OSAGE SMALL LETTER ZHA",
text! "10597..105A1  ; Lowercase # L&  [11] VITHKUQI SMALL LETTER A..VITHKUQI SMALL LETTER GA",
text! "105A3..105B1  ; Lowercase # L&  [15] VITHKUQI SMALL LETTER HA..VITHKUQI SMALL LETTER RE",
text! "105B3..105B9  ; Lowercase # L&   [7] VITHKUQI SMALL LETTER SE..VITHKUQI SMALL LETTER XE",
text! "105BB..105BC  ; Lowercase # L&   [2] VITHKUQI SMALL LETTER Y..VITHKUQI SMALL LETTER ZE",
text! "10780         ; Lowercase # Lm       MODIFIER LETTER SMALL CAPITAL AA",
text! "10783..10785  ; Lowercase # Lm   [3] MODIFIER LETTER SMALL AE..MODIFIER LETTER SMALL B WITH HOOK",
text! "10787..107B0  ; Lowercase # Lm  [42] MODIFIER LETTER SMALL DZ DIGRAPH..MODIFIER LETTER SMALL V WITH RIGHT HOOK",
text! "107B2..107BA  ; Lowercase # Lm   [9] MODIFIER LETTER SMALL CAPITAL Y..MODIFIER LETTER SMALL S WITH CURL",
text! "10CC0..10CF2  ; Lowercase # L&  [51] OLD HUNGARIAN SMALL LETTER A..OLD HUNGARIAN SMALL LETTER US",
text! "10D70..10D85  ; Lowercase # L&  [22] GARAY SMALL LETTER A..GARAY SMALL LETTER OLD NA",
text! "118C0..118DF  ; Lowercase # L&  [32] WARANG CITI SMALL LETTER NGAA..WARANG CITI SMALL LETTER VIYO",
text! "16E60..16E7F  ; Lowercase # L&  [32] MEDEFAIDRIN SMALL LETTER M..MEDEFAIDRIN SMALL LETTER Y",
text! "16EBB..16ED3  ; Lowercase # L&  [25] BERIA ERFE SMALL LETTER ARKAB..BERIA ERFE SMALL LETTER AY",
text! "1D41A..1D433  ; Lowercase # L&  [26] MATHEMATICAL BOLD SMALL A..MATHEMATICAL BOLD SMALL Z",
text! "1D44E..1D454  ; Lowercase # L&   [7] MATHEMATICAL ITALIC SMALL A..MATHEMATICAL ITALIC SMALL G",
text! "1D456..1D467  ; Lowercase # L&  [18] MATHEMATICAL ITALIC SMALL I..MATHEMATICAL ITALIC SMALL Z",
text! "1D482..1D49B  ; Lowercase # L&  [26] MATHEMATICAL BOLD ITALIC SMALL A..MATHEMATICAL BOLD ITALIC SMALL Z",
text! "1D4B6..1D4B9  ; Lowercase # L&   [4] MATHEMATICAL SCRIPT SMALL A..MATHEMATICAL SCRIPT SMALL D",
text! "1D4BB         ; Lowercase # L&       MATHEMATICAL SCRIPT SMALL F",
text! "1D4BD..1D4C3  ; Lowercase # L&   [7] MATHEMATICAL SCRIPT SMALL H..MATHEMATICAL SCRIPT SMALL N",
text! "1D4C5..1D4CF  ; Lowercase # L&  [11] MATHEMATICAL SCRIPT SMALL P..MATHEMATICAL SCRIPT SMALL Z",
text! "1D4EA..1D503  ; Lowercase # L&  [26] MATHEMATICAL BOLD SCRIPT SMALL A..MATHEMATICAL BOLD SCRIPT SMALL Z",
text! "1D51E..1D537  ; Lowercase # L&  [26] MATHEMATICAL FRAKTUR SMALL A..MATHEMATICAL FRAKTUR SMALL Z",
text! "1D552..1D56B  ; Lowercase # L&  [26] MATHEMATICAL DOUBLE-STRUCK SMALL A..MATHEMATICAL DOUBLE-STRUCK SMALL Z",
text! "1D586..1D59F  ; Lowercase # L&  [26] MATHEMATICAL BOLD FRAKTUR SMALL A..MATHEMATICAL BOLD FRAKTUR SMALL Z",
text! "1D5BA..1D5D3  ; Lowercase # L&  [26] MATHEMATICAL SANS-SERIF SMALL A..MATHEMATICAL SANS-SERIF SMALL Z",
text! "1D5EE..1D607  ; Lowercase # L&  [26] MATHEMATICAL SANS-SERIF BOLD SMALL A..MATHEMATICAL SANS-SERIF BOLD SMALL Z",
text! "1D622..1D63B  ; Lowercase # L&  [26] MATHEMATICAL SANS-SERIF ITALIC SMALL A..MATHEMATICAL SANS-SERIF ITALIC SMALL Z",
text! "1D656..1D66F  ; Lowercase # L&  [26] MATHEMATICAL SANS-SERIF BOLD ITALIC SMALL A..MATHEMATICAL SANS-SERIF BOLD ITALIC SMALL Z",
text! "1D68A..1D6A5  ; Lowercase # L&  [28] MATHEMATICAL MONOSPACE SMALL A..MATHEMATICAL ITALIC SMALL DOTLESS J",
text! "1D6C2..1D6DA  ; Lowercase # L&  [25] MATHEMATICAL BOLD SMALL ALPHA..MATHEMATICAL BOLD SMALL OMEGA",
text! "1D6DC..1D6E1  ; Lowercase # L&   [6] MATHEMATICAL BOLD EPSILON SYMBOL..MATHEMATICAL BOLD PI SYMBOL",
text! "1D6FC..1D714  ; Lowercase # L&  [25] MATHEMATICAL ITALIC SMALL ALPHA..MATHEMATICAL ITALIC SMALL OMEGA",
text! "1D716..1D71B  ; Lowercase # L&   [6] MATHEMATICAL ITALIC EPSILON SYMBOL..MATHEMATICAL ITALIC PI SYMBOL",
text! "1D736..1D74E  ; Lowercase # L&  [25] MATHEMATICAL BOLD ITALIC SMALL ALPHA..MATHEMATICAL BOLD ITALIC SMALL OMEGA",
text! "1D750..1D755  ; Lowercase # L&   [6] MATHEMATICAL BOLD ITALIC EPSILON SYMBOL..MATHEMATICAL BOLD ITALIC PI SYMBOL",
text! "1D770..1D788  ; Lowercase # L&  [25] MATHEMATICAL SANS-SERIF BOLD SMALL ALPHA..MATHEMATICAL SANS-SERIF BOLD SMALL OMEGA",
text! "1D78A..1D78F  ; Lowercase # L&   [6] MATHEMATICAL SANS-SERIF BOLD EPSILON SYMBOL..MATHEMATICAL SANS-SERIF BOLD PI SYMBOL",
text! "1D7AA..1D7C2  ; Lowercase # L&  [25] MATHEMATICAL SANS-SERIF BOLD ITALIC SMALL ALPHA..MATHEMATICAL SANS-SERIF BOLD ITALIC SMALL OMEGA",
text! "1D7C4..1D7C9  ; Lowercase # L&   [6] MATHEMATICAL SANS-SERIF BOLD ITALIC EPSILON SYMBOL..MATHEMATICAL SANS-SERIF BOLD ITALIC PI SYMBOL",
text! "1D7CB         ; Lowercase # L&       MATHEMATICAL BOLD SMALL DIGAMMA",
text! "1DF00..1DF09  ; Lowercase # L&  [10] LATIN SMALL LETTER FENG DIGRAPH WITH TRILL..LATIN SMALL LETTER T WITH HOOK AND RETROFLEX HOOK",
text! "1DF0B..1DF1E  ; Lowercase # L&  [20] LATIN SMALL LETTER ESH WITH DOUBLE BAR..LATIN SMALL LETTER S WITH CURL",
text! "1DF25..1DF2A  ; Lowercase # L&   [6] LATIN SMALL LETTER D WITH MID-HEIGHT LEFT HOOK..LATIN SMALL LETTER T WITH MID-HEIGHT LEFT HOOK",
text! "1E030..1E06D  ; Lowercase # Lm  [62] MODIFIER LETTER CYRILLIC SMALL A..MODIFIER LETTER CYRILLIC SMALL STRAIGHT U WITH STROKE",
text! "1E922..1E943  ; Lowercase # L&  [34] ADLAM SMALL LETTER ALIF..ADLAM SMALL LETTER SHA",
text! "",
text! "# Total code points: 2595",
text! "",
text! "# ================================================",
text! "",
text! "# Derived Property: Uppercase",
text! "#  Generated from: Lu + Other_Uppercase",
text! "",
text! "0041..005A    ; Uppercase # L&  [26] LATIN CAPITAL LETTER A..LATIN CAPITAL LETTER Z"]

/-- lines 2177-2240 -/
def derivedCore34 : List Nat := [
text! "00C0..00D6    ; Uppercase # L&  [23] LATIN CAPITAL LETTER A WITH GRAVE..LATIN CAPITAL LETTER O WITH DIAERESIS",
text! "00D8..00DE    ; Uppercase # L&   [7] LATIN CAPITAL LETTER O WITH STROKE..LATIN CAPITAL LETTER THORN",
text! "0100          ; Uppercase # L&       LATIN CAPITAL LETTER A WITH MACRON",
text! "0102          ; Uppercase # L&       LATIN CAPITAL LETTER A WITH BREVE",
text! "0104          ; Uppercase # L&       LATIN CAPITAL LETTER A WITH OGONEK",
text! "0106          ; Uppercase # L&       LATIN CAPITAL LETTER C WITH ACUTE",
text! "0108          ; Uppercase # L&       LATIN CAPITAL LETTER C WITH CIRCUMFLEX",
text! "010A          ; Uppercase # L&       LATIN CAPITAL LETTER C WITH DOT ABOVE",
text! "010C          ; Uppercase # L&       LATIN CAPITAL LETTER C WITH CARON",
text! "010E          ; Uppercase # L&       LATIN CAPITAL LETTER D WITH CARON",
text! "0110          ; Uppercase # L&       LATIN CAPITAL LETTER D WITH STROKE",
text! "0112          ; Uppercase # L&       LATIN CAPITAL LETTER E WITH MACRON",
text! "0114          ; Uppercase # L&       LATIN CAPITAL LETTER E WITH BREVE",
text! "0116          ; Uppercase # L&       LATIN CAPITAL LETTER E WITH DOT ABOVE",
text! "0118          ; Uppercase # L&       LATIN CAPITAL LETTER E WITH OGONEK",
text! "011A          ; Uppercase # L&       LATIN CAPITAL LETTER E WITH CARON",
text! "011C          ; Uppercase # L&       LATIN CAPITAL LETTER G WITH CIRCUMFLEX",
text! "011E          ; Uppercase # L&       LATIN CAPITAL LETTER G WITH BREVE",
text! "0120          ; Uppercase # L&       LATIN CAPITAL LETTER G WITH DOT ABOVE",
text! "0122          ; Uppercase # L&       LATIN CAPITAL LETTER G WITH CEDILLA",
text! "0124          ; Uppercase # L&       LATIN CAPITAL LETTER H WITH CIRCUMFLEX",
text! "0126          ; Uppercase # L&       LATIN CAPITAL LETTER H WITH STROKE",
text! "0128          ; Uppercase # L&       LATIN CAPITAL LETTER I WITH TILDE",
text! "012A          ; Uppercase # L&       LATIN CAPITAL LETTER I WITH MACRON",
text! "012C          ; Uppercase # L&       LATIN CAPITAL LETTER I WITH BREVE",
text! "012E          ; Uppercase # L&       LATIN CAPITAL LETTER I WITH OGONEK",
text! "0130          ; Uppercase # L&       LATIN CAPITAL LETTER I WITH DOT ABOVE",
text! "0132          ; Uppercase # L&       LATIN CAPITAL LIGATURE IJ",
text! "0134          ; Uppercase # L&       LATIN CAPITAL LETTER J WITH CIRCUMFLEX",
text! "0136          ; Uppercase # L&       LATIN CAPITAL LETTER K WITH CEDILLA",
text! "0139          ; Uppercase # L&       LATIN CAPITAL LETTER L WITH ACUTE",
text! "013B          ; Uppercase # L&       LATIN CAPITAL LETTER L WITH CEDILLA",
text! "013D          ; Uppercase # L&       LATIN CAPITAL LETTER L WITH CARON",
text! "013F          ; Uppercase # L&       LATIN CAPITAL LETTER L WITH MIDDLE DOT",
text! "0141          ; Uppercase # L&       LATIN CAPITAL LETTER L WITH STROKE",
text! "0143          ; Uppercase # L&       LATIN CAPITAL LETTER N WITH ACUTE",
text! "0145          ; Uppercase # L&       LATIN CAPITAL LETTER N WITH CEDILLA",
text! "0147          ; Uppercase # L&       LATIN CAPITAL LETTER N WITH CARON",
text! "014A          ; Uppercase # L&       LATIN CAPITAL LETTER ENG",
text! "014C          ; Uppercase # L&       LATIN CAPITAL LETTER O WITH MACRON",
text! "014E          ; Uppercase # L&       LATIN CAPITAL LETTER O WITH BREVE",
text! "0150          ; Uppercase # L&       LATIN CAPITAL LETTER O WITH DOUBLE ACUTE",
text! "0152          ; Uppercase # L&       LATIN CAPITAL LIGATURE OE",
text! "0154          ; Uppercase # L&       LATIN CAPITAL LETTER R WITH ACUTE",
text! "0156          ; Uppercase # L&       LATIN CAPITAL LETTER R WITH CEDILLA",
text! "0158          ; Uppercase # L&       LATIN CAPITAL LETTER R WITH CARON",
text! "015A          ; Uppercase # L&       LATIN CAPITAL LETTER S WITH ACUTE",
text! "015C          ; Uppercase # L&       LATIN CAPITAL LETTER S WITH CIRCUMFLEX",
text! "015E          ; Uppercase # L&       LATIN CAPITAL LETTER S WITH CEDILLA",
text! "0160          ; Uppercase # L&       LATIN CAPITAL LETTER S WITH CARON",
text! "0162          ; Uppercase # L&       LATIN CAPITAL LETTER T WITH CEDILLA",
text! "0164          ; Uppercase # L&       LATIN CAPITAL LETTER T WITH CARON",
text! "0166          ; Uppercase # L&       LATIN CAPITAL LETTER T WITH STROKE",
text! "0168          ; Uppercase # L&       LATIN CAPITAL LETTER U WITH TILDE",
text! "016A          ; Uppercase # L&       LATIN CAPITAL LETTER U WITH MACRON",
text! "016C          ; Uppercase # L&       LATIN CAPITAL LETTER U WITH BREVE",
text! "016E          ; Uppercase # L&       LATIN CAPITAL LETTER U WITH RING ABOVE",
text! "0170          ; Uppercase # L&       LATIN CAPITAL LETTER U WITH DOUBLE ACUTE",
text! "0172          ; Uppercase # L&       LATIN CAPITAL LETTER U WITH OGONEK",
text! "0174          ; Uppercase # L&       LATIN CAPITAL LETTER W WITH CIRCUMFLEX",
text! "0176          ; Uppercase # L&       LATIN CAPITAL LETTER Y WITH CIRCUMFLEX",
text! "0178..0179    ; Uppercase # L&   [2] LATIN CAPITAL LETTER Y WITH DIAERESIS..LATIN CAPITAL LETTER Z WITH ACUTE",
text! "017B          ; Uppercase # L&       LATIN CAPITAL LETTER Z WITH DOT ABOVE",
text! "017D          ; Uppercase # L&       LATIN CAPITAL LETTER Z WITH CARON"]

/-- lines 2241-2304 -/
def derivedCore35 : List Nat := [
text! "0181..0182    ; Uppercase # L&   [2] LATIN CAPITAL LETTER B WITH HOOK..LATIN CAPITAL LETTER B WITH TOPBAR",
text! "0184          ; Uppercase # L&       LATIN CAPITAL LETTER TONE SIX",
text! "0186..0187    ; Uppercase # L&   [2] LATIN CAPITAL LETTER OPEN O..LATIN CAPITAL LETTER C WITH HOOK",
text! "0189..018B    ; Uppercase # L&   [3] LATIN CAPITAL LETTER AFRICAN D..LATIN CAPITAL LETTER D WITH TOPBAR",
text! "018E..0191    ; Uppercase # L&   [4] LATIN CAPITAL LETTER REVERSED E..LATIN CAPITAL LETTER F WITH HOOK",
text! "0193..0194    ; Uppercase # L&   [2] LATIN CAPITAL LETTER G WITH HOOK..LATIN CAPITAL LETTER GAMMA",
text! "0196..0198    ; Uppercase # L&   [3] LATIN CAPITAL LETTER IOTA..LATIN CAPITAL LETTER K WITH HOOK",
text! "019C..019D    ; Uppercase # L&   [2] LATIN CAPITAL LETTER TURNED M..LATIN CAPITAL LETTER N WITH LEFT HOOK",
text! "019F..01A0    ; Uppercase # L&   [2] LATIN CAPITAL LETTER O WITH MIDDLE TILDE..LATIN CAPITAL LETTER O WITH HORN",
text! "01A2          ; Uppercase # L&       LATIN CAPITAL LETTER OI",
text! "01A4          ; Uppercase # L&       LATIN CAPITAL LETTER P WITH HOOK",
text! "01A6..01A7    ; Uppercase # L&   [2] LATIN LETTER YR..LATIN CAPITAL LETTER TONE TWO",
text! "01A9          ; Uppercase # L&       LATIN CAPITAL LETTER ESH",
text! "01AC          ; Uppercase # L&       LATIN CAPITAL LETTER T WITH HOOK",
text! "01AE..01AF    ; Uppercase # L&   [2] LATIN CAPITAL LETTER T WITH RETROFLEX HOOK..LATIN CAPITAL LETTER U WITH HORN",
text! "01B1..01B3    ; Uppercase # L&   [3] LATIN CAPITAL LETTER UPSILON..LATIN CAPITAL LETTER Y WITH HOOK",
text! "01B5          ; Uppercase # L&       LATIN CAPITAL LETTER Z WITH STROKE",
text! "01B7..01B8    ; Uppercase # L&   [2] LATIN CAPITAL LETTER EZH..LATIN CAPITAL LETTER EZH REVERSED",
text! "01BC          ; Uppercase # L&       LATIN CAPITAL LETTER TONE FIVE",
text! "01C4          ; Uppercase # L&       LATIN CAPITAL LETTER DZ WITH CARON",
text! "01C7          ; Uppercase # L&       LATIN CAPITAL LETTER LJ",
text! "01CA          ; Uppercase # L&       LATIN CAPITAL LETTER NJ",
text! "01CD          ; Uppercase # L&       LATIN CAPITAL LETTER A WITH CARON",
text! "01CF          ; Uppercase # L&       LATIN CAPITAL LETTER I WITH CARON",
text! "01D1          ; Uppercase # L&       LATIN CAPITAL LETTER O WITH CARON",
text! "01D3          ; Uppercase # L&       LATIN CAPITAL LETTER U WITH CARON",
text! "01D5          ; Uppercase # L&       LATIN CAPITAL LETTER U WITH DIAERESIS AND MACRON",
text! "01D7          ; Uppercase # L&       LATIN CAPITAL LETTER U WITH DIAERESIS AND ACUTE",
text! "01D9          ; Uppercase # L&       LATIN CAPITAL LETTER U WITH DIAERESIS AND CARON",
text! "01DB          ; Uppercase # L&       LATIN CAPITAL LETTER U WITH DIAERESIS AND GRAVE",
text! "01DE          ; Uppercase # L&       LATIN CAPITAL LETTER A WITH DIAERESIS AND MACRON",
text! "01E0          ; Uppercase # L&       LATIN CAPITAL LETTER A WITH DOT ABOVE AND MACRON",
text! "01E2          ; Uppercase # L&       LATIN CAPITAL LETTER AE WITH MACRON",
text! "01E4          ; Uppercase # L&       LATIN CAPITAL LETTER G WITH STROKE",
text! "01E6          ; Uppercase # L&       LATIN CAPITAL LETTER G WITH CARON",
text! "01E8          ; Uppercase # L&       LATIN CAPITAL LETTER K WITH CARON",
text! "01EA          ; Uppercase # L&       LATIN CAPITAL LETTER O WITH OGONEK",
text! "01EC          ; Uppercase # L&       LATIN CAPITAL LETTER O WITH OGONEK AND MACRON",
text! "01EE          ; Uppercase # L&       LATIN CAPITAL LETTER EZH WITH CARON",
text! "01F1          ; Uppercase # L&       LATIN CAPITAL LETTER DZ",
text! "01F4          ; Uppercase # L&       LATIN CAPITAL LETTER G WITH ACUTE",
text! "01F6..01F8    ; Uppercase # L&   [3] LATIN CAPITAL LETTER HWAIR..LATIN CAPITAL LETTER N WITH GRAVE",
text! "01FA          ; Uppercase # L&       LATIN CAPITAL LETTER A WITH RING ABOVE AND ACUTE",
text! "01FC          ; Uppercase # L&       LATIN CAPITAL LETTER AE WITH ACUTE",
text! "01FE          ; Uppercase # L&       LATIN CAPITAL LETTER O WITH STROKE AND ACUTE",
text! "0200          ; Uppercase # L&       LATIN CAPITAL LETTER A WITH DOUBLE GRAVE",
text! "0202          ; Uppercase # L&       LATIN CAPITAL LETTER A WITH INVERTED BREVE",
text! "0204          ; Uppercase # L&       LATIN CAPITAL LETTER E WITH DOUBLE GRAVE",
text! "0206          ; Uppercase # L&       LATIN CAPITAL LETTER E WITH INVERTED BREVE",
text! "0208          ; Uppercase # L&       LATIN CAPITAL LETTER I WITH DOUBLE GRAVE",
text! "020A          ; Uppercase # L&       LATIN CAPITAL LETTER I WITH INVERTED BREVE",
text! "020C          ; Uppercase # L&       LATIN CAPITAL LETTER O WITH DOUBLE GRAVE",
text! "020E          ; Uppercase # L&       LATIN CAPITAL LETTER O WITH INVERTED BREVE",
text! "0210          ; Uppercase # L&       LATIN CAPITAL LETTER R WITH DOUBLE GRAVE",
text! "0212          ; Uppercase # L&       LATIN CAPITAL LETTER R WITH INVERTED BREVE",
text! "0214          ; Uppercase # L&       LATIN CAPITAL LETTER U WITH DOUBLE GRAVE",
text! "0216          ; Uppercase # L&       LATIN CAPITAL LETTER U WITH INVERTED BREVE",
text! "0218          ; Uppercase # L&       LATIN CAPITAL LETTER S WITH COMMA BELOW",
text! "021A          ; Uppercase # L&       LATIN CAPITAL LETTER T WITH COMMA BELOW",
text! "021C          ; Uppercase # L&       LATIN CAPITAL LETTER YOGH",
text! "021E          ; Uppercase # L&       LATIN CAPITAL LETTER H WITH CARON",
text! "0220          ; Uppercase # L&       LATIN CAPITAL LETTER N WITH LONG RIGHT LEG",
text! "0222          ; Uppercase # L&       LATIN CAPITAL LETTER OU",
text! "0224          ; Uppercase # L&       LATIN CAPITAL LETTER Z WITH HOOK"]

/-- lines 2305-2368 -/
def derivedCore36 : List Nat := [
text! "0226          ; Uppercase # L&       LATIN CAPITAL LETTER A WITH DOT ABOVE",
text! "0228          ; Uppercase # L&       LATIN CAPITAL LETTER E WITH CEDILLA",
text! "022A          ; Uppercase # L&       LATIN CAPITAL LETTER O WITH DIAERESIS AND MACRON",
text! "022C          ; Uppercase # L&       LATIN CAPITAL LETTER O WITH TILDE AND MACRON",
text! "022E          ; Uppercase # L&       LATIN CAPITAL LETTER O WITH DOT ABOVE",
text! "0230          ; Uppercase # L&       LATIN CAPITAL LETTER O WITH DOT ABOVE AND MACRON",
text! "0232          ; Uppercase # L&       LATIN CAPITAL LETTER Y WITH MACRON",
text! "023A..023B    ; Uppercase # L&   [2] LATIN CAPITAL LETTER A WITH STROKE..LATIN CAPITAL LETTER C WITH STROKE",
text! "023D..023E    ; Uppercase # L&   [2] LATIN CAPITAL LETTER L WITH BAR..LATIN CAPITAL LETTER T WITH DIAGONAL STROKE",
text! "0241          ; Uppercase # L&       LATIN CAPITAL LETTER GLOTTAL STOP",
text! "0243..0246    ; Uppercase # L&   [4] LATIN CAPITAL LETTER B WITH STROKE..LATIN CAPITAL LETTER E WITH STROKE",
text! "0248          ; Uppercase # L&       LATIN CAPITAL LETTER J WITH STROKE",
text! "024A          ; Uppercase # L&       LATIN CAPITAL LETTER SMALL Q WITH HOOK TAIL",
text! "024C          ; Uppercase # L&       LATIN CAPITAL LETTER R WITH STROKE",
text! "024E          ; Uppercase # L&       LATIN CAPITAL LETTER Y WITH STROKE",
text! "0370          ; Uppercase # L&       GREEK CAPITAL LETTER HETA",
text! "0372          ; Uppercase # L&       GREEK CAPITAL LETTER ARCHAIC SAMPI",
text! "0376          ; Uppercase # L&       GREEK CAPITAL LETTER PAMPHYLIAN DIGAMMA",
text! "037F          ; Uppercase # L&       GREEK CAPITAL LETTER YOT",
text! "0386          ; Uppercase # L&       GREEK CAPITAL LETTER ALPHA WITH TONOS",
text! "0388..038A    ; Uppercase # L&   [3] GREEK CAPITAL LETTER EPSILON WITH TONOS..GREEK CAPITAL LETTER IOTA WITH TONOS",
text! "038C          ; Uppercase # L&       GREEK CAPITAL LETTER OMICRON WITH TONOS",
text! "038E..038F    ; Uppercase # L&   [2] GREEK CAPITAL LETTER UPSILON WITH TONOS..GREEK CAPITAL LETTER OMEGA WITH TONOS",
text! "0391..03A1    ; Uppercase # L&  [17] GREEK CAPITAL LETTER ALPHA..GREEK CAPITAL LETTER RHO",
text! "03A3..03AB    ; Uppercase # L&   [9] GREEK CAPITAL LETTER SIGMA..GREEK CAPITAL LETTER UPSILON WITH DIALYTIKA",
text! "03CF          ; Uppercase # L&       GREEK CAPITAL KAI SYMBOL",
text! "03D2..03D4    ; Uppercase # L&   [3] GREEK UPSILON WITH HOOK SYMBOL..GREEK UPSILON WITH DIAERESIS AND HOOK SYMBOL",
text! "03D8          ; Uppercase # L&       GREEK LETTER ARCHAIC KOPPA",
text! "03DA          ; Uppercase # L&       GREEK LETTER STIGMA",
text! "03DC          ; Uppercase # L&       GREEK LETTER DIGAMMA",
text! "03DE          ; Uppercase # L&       GREEK LETTER KOPPA",
text! "03E0          ; Uppercase # L&       GREEK LETTER SAMPI",
text! "03E2          ; Uppercase # L&       COPTIC CAPITAL LETTER SHEI",
text! "03E4          ; Uppercase # L&       COPTIC CAPITAL LETTER FEI",
text! "03E6          ; Uppercase # L&       COPTIC CAPITAL LETTER KHEI",
text! "03E8          ; Uppercase # L&       COPTIC CAPITAL LETTER HORI",
text! "03EA          ; Uppercase # L&       COPTIC CAPITAL LETTER GANGIA",
text! "03EC          ; Uppercase # L&       COPTIC CAPITAL LETTER SHIMA",
text! "03EE          ; Uppercase # L&       COPTIC CAPITAL LETTER DEI",
text! "03F4          ; Uppercase # L&       GREEK CAPITAL THETA SYMBOL",
text! "03F7          ; Uppercase # L&       GREEK CAPITAL LETTER SHO",
text! "03F9..03FA    ; Uppercase # L&   [2] GREEK CAPITAL LUNATE SIGMA SYMBOL..GREEK CAPITAL LETTER SAN",
text! "03FD..042F    ; Uppercase # L&  [51] GREEK CAPITAL REVERSED LUNATE SIGMA SYMBOL..CYRILLIC CAPITAL LETTER YA",
text! "0460          ; Uppercase # L&       CYRILLIC CAPITAL LETTER OMEGA",
text! "0462          ; Uppercase # L&       CYRILLIC CAPITAL LETTER YAT",
text! "0464          ; Uppercase # L&       CYRILLIC CAPITAL LETTER IOTIFIED E",
text! "0466          ; Uppercase # L&       CYRILLIC CAPITAL LETTER LITTLE YUS",
text! "0468          ; Uppercase # L&       CYRILLIC CAPITAL LETTER IOTIFIED LITTLE YUS",
text! "046A          ; Uppercase # L&       CYRILLIC CAPITAL LETTER BIG YUS",
text! "046C          ; Uppercase # L&       CYRILLIC CAPITAL LETTER IOTIFIED BIG YUS",
text! "046E          ; Uppercase # L&       CYRILLIC CAPITAL LETTER KSI",
text! "0470          ; Uppercase # L&       CYRILLIC CAPITAL LETTER PSI",
text! "0472          ; Uppercase # L&       CYRILLIC CAPITAL LETTER FITA",
text! "0474          ; Uppercase # L&       CYRILLIC CAPITAL LETTER IZHITSA",
text! "0476          ; Uppercase # L&       CYRILLIC CAPITAL LETTER IZHITSA WITH DOUBLE GRAVE ACCENT",
text! "0478          ; Uppercase # L&       CYRILLIC CAPITAL LETTER UK",
text! "047A          ; Uppercase # L&       CYRILLIC CAPITAL LETTER ROUND OMEGA",
text! "047C          ; Uppercase # L&       CYRILLIC CAPITAL LETTER OMEGA WITH TITLO",
text! "047E          ; Uppercase # L&       CYRILLIC CAPITAL LETTER OT",
text! "0480          ; Uppercase # L&       CYRILLIC CAPITAL LETTER KOPPA",
text! "048A          ; Uppercase # L&       CYRILLIC CAPITAL LETTER SHORT I WITH TAIL",
text! "048C          ; Uppercase # L&       CYRILLIC CAPITAL LETTER SEMISOFT SIGN",
text! "048E          ; Uppercase # L&       CYRILLIC CAPITAL LETTER ER WITH TICK",
text! "0490          ; Uppercase # L&       CYRILLIC CAPITAL LETTER GHE WITH UPTURN"]

/-- lines 2369-2432 -/
def derivedCore37 : List Nat := [
text! "0492          ; Uppercase # L&       CYRILLIC CAPITAL LETTER GHE WITH STROKE",
text! "0494          ; Uppercase # L&       CYRILLIC CAPITAL LETTER GHE WITH MIDDLE HOOK",
text! "0496          ; Uppercase # L&       CYRILLIC CAPITAL LETTER ZHE WITH DESCENDER",
text! "0498          ; Uppercase # L&       CYRILLIC CAPITAL LETTER ZE WITH DESCENDER",
text! "049A          ; Uppercase # L&       CYRILLIC CAPITAL LETTER KA WITH DESCENDER",
text! "049C          ; Uppercase # L&       CYRILLIC CAPITAL LETTER KA WITH VERTICAL STROKE",
text! "049E          ; Uppercase # L&       CYRILLIC CAPITAL LETTER KA WITH STROKE",
text! "04A0          ; Uppercase # L&       CYRILLIC CAPITAL LETTER BASHKIR KA",
text! "04A2          ; Uppercase # L&       CYRILLIC CAPITAL LETTER EN WITH DESCENDER",
text! "04A4          ; Uppercase # L&       CYRILLIC CAPITAL LIGATURE EN GHE",
text! "04A6          ; Uppercase # L&       CYRILLIC CAPITAL LETTER PE WITH MIDDLE HOOK",
text! "04A8          ; Uppercase # L&       CYRILLIC CAPITAL LETTER ABKHASIAN HA",
text! "04AA          ; Uppercase # L&       CYRILLIC CAPITAL LETTER ES WITH DESCENDER",
text! "04AC          ; Uppercase # L&       CYRILLIC CAPITAL LETTER TE WITH DESCENDER",
text! "04AE          ; Uppercase # L&       CYRILLIC CAPITAL LETTER STRAIGHT U",
text! "04B0          ; Uppercase # L&       CYRILLIC CAPITAL LETTER STRAIGHT U WITH STROKE",
text! "04B2          ; Uppercase # L&       CYRILLIC CAPITAL LETTER HA WITH DESCENDER",
text! "04B4          ; Uppercase # L&       CYRILLIC CAPITAL LIGATURE TE TSE",
text! "04B6          ; Uppercase # L&       CYRILLIC CAPITAL LETTER CHE WITH DESCENDER",
text! "04B8          ; Uppercase # L&       CYRILLIC CAPITAL LETTER CHE WITH VERTICAL STROKE",
text! "04BA          ; Uppercase # L&       CYRILLIC CAPITAL LETTER SHHA",
text! "04BC          ; Uppercase # L&       CYRILLIC CAPITAL LETTER ABKHASIAN CHE",
text! "04BE          ; Uppercase # L&       CYRILLIC CAPITAL LETTER ABKHASIAN CHE WITH DESCENDER",
text! "04C0..04C1    ; Uppercase # L&   [2] CYRILLIC LETTER PALOCHKA..CYRILLIC CAPITAL LETTER ZHE WITH BREVE",
text! "04C3          ; Uppercase # L&       CYRILLIC CAPITAL LETTER KA WITH HOOK",
text! "04C5          ; Uppercase # L&       CYRILLIC CAPITAL LETTER EL WITH TAIL",
text! "04C7          ; Uppercase # L&       CYRILLIC CAPITAL LETTER EN WITH HOOK",
text! "04C9          ; Uppercase # L&       CYRILLIC CAPITAL LETTER EN WITH TAIL",
text! "04CB          ; Uppercase # L&       CYRILLIC CAPITAL LETTER KHAKASSIAN CHE",
text! "04CD          ; Uppercase # L&       CYRILLIC CAPITAL LETTER EM WITH TAIL",
text! "04D0          ; Uppercase # L&       CYRILLIC CAPITAL LETTER A WITH BREVE",
text! "04D2          ; Uppercase # L&       CYRILLIC CAPITAL LETTER A WITH DIAERESIS",
text! "04D4          ; Uppercase # L&       CYRILLIC CAPITAL LIGATURE A IE",
text! "04D6          ; Uppercase # L&       CYRILLIC CAPITAL LETTER IE WITH BREVE",
text! "04D8          ; Uppercase # L&       CYRILLIC CAPITAL LETTER SCHWA",
text! "04DA          ; Uppercase # L&       CYRILLIC CAPITAL LETTER SCHWA WITH DIAERESIS",
text! "04DC          ; Uppercase # L&       CYRILLIC CAPITAL LETTER ZHE WITH DIAERESIS",
text! "04DE          ; Uppercase # L&       CYRILLIC CAPITAL LETTER ZE WITH DIAERESIS",
text! "04E0          ; Uppercase # L&       CYRILLIC CAPITAL LETTER ABKHASIAN DZE",
text! "04E2          ; Uppercase # L&       CYRILLIC CAPITAL LETTER I WITH MACRON",
text! "04E4          ; Uppercase # L&       CYRILLIC CAPITAL LETTER I WITH DIAERESIS",
text! "04E6          ; Uppercase # L&       CYRILLIC CAPITAL LETTER O WITH DIAERESIS",
text! "04E8          ; Uppercase # L&       CYRILLIC CAPITAL LETTER BARRED O",
text! "04EA          ; Uppercase # L&       CYRILLIC CAPITAL LETTER BARRED O WITH DIAERESIS",
text! "04EC          ; Uppercase # L&       CYRILLIC CAPITAL LETTER E WITH DIAERESIS",
text! "04EE          ; Uppercase # L&       CYRILLIC CAPITAL LETTER U WITH MACRON",
text! "04F0          ; Uppercase # L&       CYRILLIC CAPITAL LETTER U WITH DIAERESIS",
text! "04F2          ; Uppercase # L&       CYRILLIC CAPITAL LETTER U WITH DOUBLE ACUTE",
text! "04F4          ; Uppercase # L&       CYRILLIC CAPITAL LETTER CHE WITH DIAERESIS",
text! "04F6          ; Uppercase # L&       CYRILLIC CAPITAL LETTER GHE WITH DESCENDER",
text! "04F8          ; Uppercase # L&       CYRILLIC CAPITAL LETTER YERU WITH DIAERESIS",
text! "04FA          ; Uppercase # L&       CYRILLIC CAPITAL LETTER GHE WITH STROKE AND HOOK",
text! "04FC          ; Uppercase # L&       CYRILLIC CAPITAL LETTER HA WITH HOOK",
text! "04FE          ; Uppercase # L&       CYRILLIC CAPITAL LETTER HA WITH STROKE",
text! "0500          ; Uppercase # L&       CYRILLIC CAPITAL LETTER KOMI DE",
text! "0502          ; Uppercase # L&       CYRILLIC CAPITAL LETTER KOMI DJE",
text! "0504          ; Uppercase # L&       CYRILLIC CAPITAL LETTER KOMI ZJE",
text! "0506          ; Uppercase # L&       CYRILLIC CAPITAL LETTER KOMI DZJE",
text! "0508          ; Uppercase # L&       CYRILLIC CAPITAL LETTER KOMI LJE",
text! "050A          ; Uppercase # L&       CYRILLIC CAPITAL LETTER KOMI NJE",
text! "050C          ; Uppercase # L&       CYRILLIC CAPITAL LETTER KOMI SJE",
text! "050E          ; Uppercase # L&       CYRILLIC CAPITAL LETTER KOMI TJE",
text! "0510          ; Uppercase # L&       CYRILLIC CAPITAL LETTER REVERSED ZE",
text! "0512          ; Uppercase # L&       CYRILLIC CAPITAL LETTER EL WITH HOOK"]

/-- lines 2433-2496 -/
def derivedCore38 : List Nat := [
text! "0514          ; Uppercase # L&       CYRILLIC CAPITAL LETTER LHA",
text! "0516          ; Uppercase # L&       CYRILLIC CAPITAL LETTER RHA",
text! "0518          ; Uppercase # L&       CYRILLIC CAPITAL LETTER YAE",
text! "051A          ; Uppercase # L&       CYRILLIC CAPITAL LETTER QA",
text! "051C          ; Uppercase # L&       CYRILLIC CAPITAL LETTER WE",
text! "051E          ; Uppercase # L&       CYRILLIC CAPITAL LETTER ALEUT KA",
text! "0520          ; Uppercase # L&       CYRILLIC CAPITAL LETTER EL WITH MIDDLE HOOK",
text! "0522          ; Uppercase # L&       CYRILLIC CAPITAL LETTER EN WITH MIDDLE HOOK",
text! "0524          ; Uppercase # L&       CYRILLIC CAPITAL LETTER PE WITH DESCENDER",
text! "0526          ; Uppercase # L&       CYRILLIC CAPITAL LETTER SHHA WITH DESCENDER",
text! "0528          ; Uppercase # L&       CYRILLIC CAPITAL LETTER EN WITH LEFT HOOK",
text! "052A          ; Uppercase # L&       CYRILLIC CAPITAL LETTER DZZHE",
text! "052C          ; Uppercase # L&       CYRILLIC CAPITAL LETTER DCHE",
text! "052E          ; Uppercase # L&       CYRILLIC CAPITAL LETTER EL WITH DESCENDER",
text! "0531..0556    ; Uppercase # L&  [38] ARMENIAN CAPITAL LETTER AYB..ARMENIAN CAPITAL LETTER FEH",
text! "10A0..10C5    ; Uppercase # L&  [38] GEORGIAN CAPITAL LETTER AN..GEORGIAN CAPITAL LETTER HOE",
text! "10C7          ; Uppercase # L&       GEORGIAN CAPITAL LETTER YN",
text! "10CD          ; Uppercase # L&       GEORGIAN CAPITAL LETTER AEN",
text! "13A0..13F5    ; Uppercase # L&  [86] CHEROKEE LETTER A..CHEROKEE LETTER MV",
text! "1C89          ; Uppercase # L&       CYRILLIC CAPITAL LETTER TJE",
text! "1C90..1CBA    ; Uppercase # L&  [43] GEORGIAN MTAVRULI CAPITAL LETTER AN..GEORGIAN MTAVRULI CAPITAL LETTER AIN",
text! "1CBD..1CBF    ; Uppercase # L&   [3] GEORGIAN MTAVRULI CAPITAL LETTER AEN..GEORGIAN MTAVRULI CAPITAL LETTER LABIAL SIGN",
text! "1E00          ; Uppercase # L&       LATIN CAPITAL LETTER A WITH RING BELOW",
text! "1E02          ; Uppercase # L&       LATIN CAPITAL LETTER B WITH DOT ABOVE",
text! "1E04          ; Uppercase # L&       LATIN CAPITAL LETTER B WITH DOT BELOW",
text! "1E06          ; Uppercase # L&       LATIN CAPITAL LETTER B WITH LINE BELOW",
text! "1E08          ; Uppercase # L&       LATIN CAPITAL LETTER C WITH CEDILLA AND ACUTE",
text! "1E0A          ; Uppercase # L&       LATIN CAPITAL LETTER D WITH DOT ABOVE",
text! "1E0C          ; Uppercase # L&       LATIN CAPITAL LETTER D WITH DOT BELOW",
text! "1E0E          ; Uppercase # L&       LATIN CAPITAL LETTER D WITH LINE BELOW",
text! "1E10          ; Uppercase # L&       LATIN CAPITAL LETTER D WITH CEDILLA",
text! "1E12          ; Uppercase # L&       LATIN CAPITAL LETTER D WITH CIRCUMFLEX BELOW",
text! "1E14          ; Uppercase # L&       LATIN CAPITAL LETTER E WITH MACRON AND GRAVE",
text! "1E16          ; Uppercase # L&       LATIN CAPITAL LETTER E WITH MACRON AND ACUTE",
text! "1E18          ; Uppercase # L&       LATIN CAPITAL LETTER E WITH CIRCUMFLEX BELOW",
text! "1E1A          ; Uppercase # L&       LATIN CAPITAL LETTER E WITH TILDE BELOW",
text! "1E1C          ; Uppercase # L&       LATIN CAPITAL LETTER E WITH CEDILLA AND BREVE",
text! "1E1E          ; Uppercase # L&       LATIN CAPITAL LETTER F WITH DOT ABOVE",
text! "1E20          ; Uppercase # L&       LATIN CAPITAL LETTER G WITH MACRON",
text! "1E22          ; Uppercase # L&       LATIN CAPITAL LETTER H WITH DOT ABOVE",
text! "1E24          ; Uppercase # L&       LATIN CAPITAL LETTER H WITH DOT BELOW",
text! "1E26          ; Uppercase # L&       LATIN CAPITAL LETTER H WITH DIAERESIS",
text! "1E28          ; Uppercase # L&       LATIN CAPITAL LETTER H WITH CEDILLA",
text! "1E2A          ; Uppercase # L&       LATIN CAPITAL LETTER H WITH BREVE BELOW",
text! "1E2C          ; Uppercase # L&       LATIN CAPITAL LETTER I WITH TILDE BELOW",
text! "1E2E          ; Uppercase # L&       LATIN CAPITAL LETTER I WITH DIAERESIS AND ACUTE",
text! "1E30          ; Uppercase # L&       LATIN CAPITAL LETTER K WITH ACUTE",
text! "1E32          ; Uppercase # L&       LATIN CAPITAL LETTER K WITH DOT BELOW",
text! "1E34          ; Uppercase # L&       LATIN CAPITAL LETTER K WITH LINE BELOW",
text! "1E36          ; Uppercase # L&       LATIN CAPITAL LETTER L WITH DOT BELOW",
text! "1E38          ; Uppercase # L&       LATIN CAPITAL LETTER L WITH DOT BELOW AND MACRON",
text! "1E3A          ; Uppercase # L&       LATIN CAPITAL LETTER L WITH LINE BELOW",
text! "1E3C          ; Uppercase # L&       LATIN CAPITAL LETTER L WITH CIRCUMFLEX BELOW",
text! "1E3E          ; Uppercase # L&       LATIN CAPITAL LETTER M WITH ACUTE",
text! "1E40          ; Uppercase # L&       LATIN CAPITAL LETTER M WITH DOT ABOVE",
text! "1E42          ; Uppercase # L&       LATIN CAPITAL LETTER M WITH DOT BELOW",
text! "1E44          ; Uppercase # L&       LATIN CAPITAL LETTER N WITH DOT ABOVE",
text! "1E46          ; Uppercase # L&       LATIN CAPITAL LETTER N WITH DOT BELOW",
text! "1E48          ; Uppercase # L&       LATIN CAPITAL LETTER N WITH LINE BELOW",
text! "1E4A          ; Uppercase # L&       LATIN CAPITAL LETTER N WITH CIRCUMFLEX BELOW",
text! "1E4C          ; Uppercase # L&       LATIN CAPITAL LETTER O WITH TILDE AND ACUTE",
text! "1E4E          ; Uppercase # L&       LATIN CAPITAL LETTER O WITH TILDE AND DIAERESIS",
text! "1E50          ; Uppercase # L&       LATIN CAPITAL LETTER O WITH MACRON AND GRAVE",
text! "1E52          ; Uppercase # L&       LATIN CAPITAL LETTER O WITH MACRON AND ACUTE"]

/-- lines 2497-2560 -/
def derivedCore39 : List Nat := [
text! "1E54          ; Uppercase # L&       LATIN CAPITAL LETTER P WITH ACUTE",
text! "1E56          ; Uppercase # L&       LATIN CAPITAL LETTER P WITH DOT ABOVE",
text! "1E58          ; Uppercase # L&       LATIN CAPITAL LETTER R WITH DOT ABOVE",
text! "1E5A          ; Uppercase # L&       LATIN CAPITAL LETTER R WITH DOT BELOW",
text! "1E5C          ; Uppercase # L&       LATIN CAPITAL LETTER R WITH DOT BELOW AND MACRON",
text! "1E5E          ; Uppercase # L&       LATIN CAPITAL LETTER R WITH LINE BELOW",
text! "1E60          ; Uppercase # L&       LATIN CAPITAL LETTER S WITH DOT ABOVE",
text! "1E62          ; Uppercase # L&       LATIN CAPITAL LETTER S WITH DOT BELOW",
text! "1E64          ; Uppercase # L&       LATIN CAPITAL LETTER S WITH ACUTE AND DOT ABOVE",
text! "1E66          ; Uppercase # L&       LATIN CAPITAL LETTER S WITH CARON AND DOT ABOVE",
text! "1E68          ; Uppercase # L&       LATIN CAPITAL LETTER S WITH DOT BELOW AND DOT ABOVE",
text! "1E6A          ; Uppercase # L&       LATIN CAPITAL LETTER T WITH DOT ABOVE",
text! "1E6C          ; Uppercase # L&       LATIN CAPITAL LETTER T WITH DOT BELOW",
text! "1E6E          ; Uppercase # L&       LATIN CAPITAL LETTER T WITH LINE BELOW",
text! "1E70          ; Uppercase # L&       LATIN CAPITAL LETTER T WITH CIRCUMFLEX BELOW",
text! "1E72          ; Uppercase # L&       LATIN CAPITAL LETTER U WITH DIAERESIS BELOW",
text! "1E74          ; Uppercase # L&       LATIN CAPITAL LETTER U WITH TILDE BELOW",
text! "1E76          ; Uppercase # L&       LATIN CAPITAL LETTER U WITH CIRCUMFLEX BELOW",
text! "1E78          ; Uppercase # L&       LATIN CAPITAL LETTER U WITH TILDE AND ACUTE",
text! "1E7A          ; Uppercase # L&       LATIN CAPITAL LETTER U WITH MACRON AND DIAERESIS",
text! "1E7C          ; Uppercase # L&       LATIN CAPITAL LETTER V WITH TILDE",
text! "1E7E          ; Uppercase # L&       LATIN CAPITAL LETTER V WITH DOT BELOW",
text! "1E80          ; Uppercase # L&       LATIN CAPITAL LETTER W WITH GRAVE",
text! "1E82          ; Uppercase # L&       LATIN CAPITAL LETTER W WITH ACUTE",
text! "1E84          ; Uppercase # L&       LATIN CAPITAL LETTER W WITH DIAERESIS",
text! "1E86          ; Uppercase # L&       LATIN CAPITAL LETTER W WITH DOT ABOVE",
text! "1E88          ; Uppercase # L&       LATIN CAPITAL LETTER W WITH DOT BELOW",
text! "1E8A          ; Uppercase # L&       LATIN CAPITAL LETTER X WITH DOT ABOVE",
text! "1E8C          ; Uppercase # L&       LATIN CAPITAL LETTER X WITH DIAERESIS",
text! "1E8E          ; Uppercase # L&       LATIN CAPITAL LETTER Y WITH DOT ABOVE",
text! "1E90          ; Uppercase # L&       LATIN CAPITAL LETTER Z WITH CIRCUMFLEX",
text! "1E92          ; Uppercase # L&       LATIN CAPITAL LETTER Z WITH DOT BELOW",
text! "1E94          ; Uppercase # L&       LATIN CAPITAL LETTER Z WITH LINE BELOW",
text! "1E9E          ; Uppercase # L&       LATIN CAPITAL LETTER SHARP S",
text! "1EA0          ; Uppercase # L&       LATIN CAPITAL LETTER A WITH DOT BELOW",
text! "1EA2          ; Uppercase # L&       LATIN CAPITAL LETTER A WITH HOOK ABOVE",
text! "1EA4          ; Uppercase # L&       LATIN CAPITAL LETTER A WITH CIRCUMFLEX AND ACUTE",
text! "1EA6          ; Uppercase # L&       LATIN CAPITAL LETTER A WITH CIRCUMFLEX AND GRAVE",
text! "1EA8          ; Uppercase # L&       LATIN CAPITAL LETTER A WITH CIRCUMFLEX AND HOOK ABOVE",
text! "1EAA          ; Uppercase # L&       LATIN CAPITAL LETTER A WITH CIRCUMFLEX AND TILDE",
text! "1EAC          ; Uppercase # L&       LATIN CAPITAL LETTER A WITH CIRCUMFLEX AND DOT BELOW",
text! "1EAE          ; Uppercase # L&       LATIN CAPITAL LETTER A WITH BREVE AND ACUTE",
text! "1EB0          ; Uppercase # L&       LATIN CAPITAL LETTER A WITH BREVE AND GRAVE",
text! "1EB2          ; Uppercase # L&       LATIN CAPITAL LETTER A WITH BREVE AND HOOK ABOVE",
text! "1EB4          ; Uppercase # L&       LATIN CAPITAL LETTER A WITH BREVE AND TILDE",
text! "1EB6          ; Uppercase # L&       LATIN CAPITAL LETTER A WITH BREVE AND DOT BELOW",
text! "1EB8          ; Uppercase # L&       LATIN CAPITAL LETTER E WITH DOT BELOW",
text! "1EBA          ; Uppercase # L&       LATIN CAPITAL LETTER E WITH HOOK ABOVE",
text! "1EBC          ; Uppercase # L&       LATIN CAPITAL LETTER E WITH TILDE",
text! "1EBE          ; Uppercase # L&       LATIN CAPITAL LETTER E WITH CIRCUMFLEX AND ACUTE",
text! "1EC0          ; Uppercase # L&       LATIN CAPITAL LETTER E WITH CIRCUMFLEX AND GRAVE",
text! "1EC2          ; Uppercase # L&       LATIN CAPITAL LETTER E WITH CIRCUMFLEX AND HOOK ABOVE",
text! "1EC4          ; Uppercase # L&       LATIN CAPITAL LETTER E WITH CIRCUMFLEX AND TILDE",
text! "1EC6          ; Uppercase # L&       LATIN CAPITAL LETTER E WITH CIRCUMFLEX AND DOT BELOW",
text! "1EC8          ; Uppercase # L&       LATIN CAPITAL LETTER I WITH HOOK ABOVE",
text! "1ECA          ; Uppercase # L&       LATIN CAPITAL LETTER I WITH DOT BELOW",
text! "1ECC          ; Uppercase # L&       LATIN CAPITAL LETTER O WITH DOT BELOW",
text! "1ECE          ; Uppercase # L&       LATIN CAPITAL LETTER O WITH HOOK ABOVE",
text! "1ED0          ; Uppercase # L&       LATIN CAPITAL LETTER O WITH CIRCUMFLEX AND ACUTE",
text! "1ED2          ; Uppercase # L&       LATIN CAPITAL LETTER O WITH CIRCUMFLEX AND GRAVE",
text! "1ED4          ; Uppercase # L&       LATIN CAPITAL LETTER O WITH CIRCUMFLEX AND HOOK ABOVE",
text! "1ED6          ; Uppercase # L&       LATIN CAPITAL LETTER O WITH CIRCUMFLEX AND TILDE",
text! "1ED8          ; Uppercase # L&       LATIN CAPITAL LETTER O WITH CIRCUMFLEX AND DOT BELOW",
text! "1EDA          ; Uppercase # L&       LATIN CAPITAL LETTER O WITH HORN AND ACUTE"]

/-- lines 2561-2624 -/
def derivedCore40 : List Nat := [
text! "1EDC          ; Uppercase # L&       LATIN CAPITAL LETTER O WITH HORN AND GRAVE",
text! "1EDE          ; Uppercase # L&       LATIN CAPITAL LETTER O WITH HORN AND HOOK ABOVE",
text! "1EE0          ; Uppercase # L&       LATIN CAPITAL LETTER O WITH HORN AND TILDE",
text! "1EE2          ; Uppercase # L&       LATIN CAPITAL LETTER O WITH HORN AND DOT BELOW",
text! "1EE4          ; Uppercase # L&       LATIN CAPITAL LETTER U WITH DOT BELOW",
text! "1EE6          ; Uppercase # L&       LATIN CAPITAL LETTER U WITH HOOK ABOVE",
text! "1EE8          ; Uppercase # L&       LATIN CAPITAL LETTER U WITH HORN AND ACUTE",
text! "1EEA          ; Uppercase # L&       LATIN CAPITAL LETTER U WITH HORN AND GRAVE",
text! "1EEC          ; Uppercase # L&       LATIN CAPITAL LETTER U WITH HORN AND HOOK ABOVE",
text! "1EEE          ; Uppercase # L&       LATIN CAPITAL LETTER U WITH HORN AND TILDE",
text! "1EF0          ; Uppercase # L&       LATIN CAPITAL LETTER U WITH HORN AND DOT BELOW",
text! "1EF2          ; Uppercase # L&       LATIN CAPITAL LETTER Y WITH GRAVE",
text! "1EF4          ; Uppercase # L&       LATIN CAPITAL LETTER Y WITH DOT BELOW",
text! "1EF6          ; Uppercase # L&       LATIN CAPITAL LETTER Y WITH HOOK ABOVE",
text! "1EF8          ; Uppercase # L&       LATIN CAPITAL LETTER Y WITH TILDE",
text! "1EFA          ; Uppercase # L&       LATIN CAPITAL LETTER MIDDLE-WELSH LL",
text! "1EFC          ; Uppercase # L&       LATIN CAPITAL LETTER MIDDLE-WELSH V",
text! "1EFE          ; Uppercase # L&       LATIN CAPITAL LETTER Y WITH LOOP",
text! "1F08..1F0F    ; Uppercase # L&   [8] GREEK CAPITAL LETTER ALPHA WITH PSILI..GREEK CAPITAL LETTER ALPHA WITH DASIA AND PERISPOMENI",
text! "1F18..1F1D    ; Uppercase # L&   [6] GREEK CAPITAL LETTER EPSILON WITH PSILI..GREEK CAPITAL LETTER EPSILON WITH DASIA AND OXIA",
text! "1F28..1F2F    ; Uppercase # L&   [8] GREEK CAPITAL LETTER ETA WITH PSILI..GREEK CAPITAL LETTER ETA WITH DASIA AND PERISPOMENI",
text! "1F38..1F3F    ; Uppercase # L&   [8] GREEK CAPITAL LETTER IOTA WITH PSILI..GREEK CAPITAL LETTER IOTA WITH DASIA AND PERISPOMENI",
text! "1F48..1F4D    ; Uppercase # L&   [6] GREEK CAPITAL LETTER OMICRON WITH PSILI..GREEK CAPITAL LETTER OMICRON WITH DASIA AND OXIA",
text! "1F59          ; Uppercase # L&       GREEK CAPITAL LETTER UPSILON WITH DASIA",
text! "1F5B          ; Uppercase # L&       GREEK CAPITAL LETTER UPSILON WITH DASIA AND VARIA",
text! "1F5D          ; Uppercase # L&       GREEK CAPITAL LETTER UPSILON WITH DASIA AND OXIA",
text! "1F5F          ; Uppercase # L&       GREEK CAPITAL LETTER UPSILON WITH DASIA AND PERISPOMENI",
text! "1F68..1F6F    ; Uppercase # L&   [8] GREEK CAPITAL LETTER OMEGA WITH PSILI..GREEK CAPITAL LETTER OMEGA WITH DASIA AND PERISPOMENI",
text! "1FB8..1FBB    ; Uppercase # L&   [4] GREEK CAPITAL LETTER ALPHA WITH VRACHY..GREEK CAPITAL LETTER ALPHA WITH OXIA",
text! "1FC8..1FCB    ; Uppercase # L&   [4] GREEK CAPITAL LETTER EPSILON WITH VARIA..GREEK CAPITAL LETTER ETA WITH OXIA",
text! "1FD8..1FDB    ; Uppercase # L&   [4] GREEK CAPITAL LETTER IOTA WITH VRACHY..GREEK CAPITAL LETTER IOTA WITH OXIA",
text! "1FE8..1FEC    ; Uppercase # L&   [5] GREEK CAPITAL LETTER UPSILON WITH VRACHY..GREEK CAPITAL LETTER RHO WITH DASIA",
text! "1FF8..1FFB    ; Uppercase # L&   [4] GREEK CAPITAL LETTER OMICRON WITH VARIA..GREEK CAPITAL LETTER OMEGA WITH OXIA",
text! "2102          ; Uppercase # L&       DOUBLE-STRUCK CAPITAL C",
text! "2107          ; Uppercase # L&       EULER CONSTANT",
text! "210B..210D    ; Uppercase # L&   [3] SCRIPT CAPITAL H..DOUBLE-STRUCK CAPITAL H",
text! "2110..2112    ; Uppercase # L&   [3] SCRIPT CAPITAL I..SCRIPT CAPITAL L",
text! "2115          ; Uppercase # L&       DOUBLE-STRUCK CAPITAL N",
text! "2119..211D    ; Uppercase # L&   [5] DOUBLE-STRUCK CAPITAL P..DOUBLE-STRUCK CAPITAL R",
text! "2124          ; Uppercase # L&       DOUBLE-STRUCK CAPITAL Z",
text! "2126          ; Uppercase # L&       OHM SIGN",
text! "2128          ; Uppercase # L&       BLACK-LETTER CAPITAL Z",
text! "212A..212D    ; Uppercase # L&   [4] KELVIN SIGN..BLACK-LETTER CAPITAL C",
text! "2130..2133    ; Uppercase # L&   [4] SCRIPT CAPITAL E..SCRIPT CAPITAL M",
text! "213E..213F    ; Uppercase # L&   [2] DOUBLE-STRUCK CAPITAL GAMMA..DOUBLE-STRUCK CAPITAL PI",
text! "2145          ; Uppercase # L&       DOUBLE-STRUCK ITALIC CAPITAL D",
text! "2160..216F    ; Uppercase # Nl  [16] ROMAN NUMERAL ONE..ROMAN NUMERAL ONE THOUSAND",
text! "2183          ; Uppercase # L&       ROMAN NUMERAL REVERSED ONE HUNDRED",
text! "24B6..24CF    ; Uppercase # So  [26] CIRCLED LATIN CAPITAL LETTER A..CIRCLED LATIN CAPITAL LETTER Z",
text! "2C00..2C2F    ; Uppercase # L&  [48] GLAGOLITIC CAPITAL LETTER AZU..GLAGOLITIC CAPITAL LETTER CAUDATE CHRIVI",
text! "2C60          ; Uppercase # L&       LATIN CAPITAL LETTER L WITH DOUBLE BAR",
text! "2C62..2C64    ; Uppercase # L&   [3] LATIN CAPITAL LETTER L WITH MIDDLE TILDE..LATIN CAPITAL LETTER R WITH TAIL",
text! "2C67          ; Uppercase # L&       LATIN CAPITAL LETTER H WITH DESCENDER",
text! "2C69          ; Uppercase # L&       LATIN CAPITAL LETTER K WITH DESCENDER",
text! "2C6B          ; Uppercase # L&       LATIN CAPITAL LETTER Z WITH DESCENDER",
text! "2C6D..2C70    ; Uppercase # L&   [4] LATIN CAPITAL LETTER ALPHA..LATIN CAPITAL LETTER TURNED ALPHA",
text! "2C72          ; Uppercase # L&       LATIN CAPITAL LETTER W WITH HOOK",
text! "2C75          ; Uppercase # L&       LATIN CAPITAL LETTER HALF H",
text! "2C7E..2C80    ; Uppercase # L&   [3] LATIN CAPITAL LETTER S WITH SWASH TAIL..COPTIC CAPITAL LETTER ALFA",
text! "2C82          ; Uppercase # L&       COPTIC CAPITAL LETTER VIDA",
text! "2C84          ; Uppercase # L&       COPTIC CAPITAL LETTER GAMMA",
text! "2C86          ; Uppercase # L&       COPTIC CAPITAL LETTER DALDA",
text! "2C88          ; Uppercase # L&       COPTIC CAPITAL LETTER EIE",
text! "2C8A          ; Uppercase # L&       COPTIC CAPITAL LETTER SOU"]

/-- lines 2625-2688 -/
def derivedCore41 : List Nat := [
text! "2C8C          ; Uppercase # L&       COPTIC CAPITAL LETTER ZATA",
text! "2C8E          ; Uppercase # L&       COPTIC CAPITAL LETTER HATE",
text! "2C90          ; Uppercase # L&       COPTIC CAPITAL LETTER THETHE",
text! "2C92          ; Uppercase # L&       COPTIC CAPITAL LETTER IAUDA",
text! "2C94          ; Uppercase # L&       COPTIC CAPITAL LETTER KAPA",
text! "2C96          ; Uppercase # L&       COPTIC CAPITAL LETTER LAULA",
text! "2C98          ; Uppercase # L&       COPTIC CAPITAL LETTER MI",
text! "2C9A          ; Uppercase # L&       COPTIC CAPITAL LETTER NI",
text! "2C9C          ; Uppercase # L&       COPTIC CAPITAL LETTER KSI",
text! "2C9E          ; Uppercase # L&       COPTIC CAPITAL LETTER O",
text! "2CA0          ; Uppercase # L&       COPTIC CAPITAL LETTER PI",
text! "2CA2          ; Uppercase # L&       COPTIC CAPITAL LETTER RO",
text! "2CA4          ; Uppercase # L&       COPTIC CAPITAL LETTER SIMA",
text! "2CA6          ; Uppercase # L&       COPTIC CAPITAL LETTER TAU",
text! "2CA8          ; Uppercase # L&       COPTIC CAPITAL LETTER UA",
text! "2CAA          ; Uppercase # L&       COPTIC CAPITAL LETTER FI",
text! "2CAC          ; Uppercase # L&       COPTIC CAPITAL LETTER KHI",
text! "2CAE          ; Uppercase # L&       COPTIC CAPITAL LETTER PSI",
text! "2CB0          ; Uppercase # L&       COPTIC CAPITAL LETTER OOU",
text! "2CB2          ; Uppercase # L&       COPTIC CAPITAL LETTER DIALECT-P ALEF",
text! "2CB4          ; Uppercase # L&       COPTIC CAPITAL LETTER OLD COPTIC AIN",
text! "2CB6          ; Uppercase # L&       COPTIC CAPITAL LETTER CRYPTOGRAMMIC EIE",
text! "2CB8          ; Uppercase # L&       COPTIC CAPITAL LETTER DIALECT-P KAPA",
text! "2CBA          ; Uppercase # L&       COPTIC CAPITAL LETTER DIALECT-P NI",
text! "2CBC          ; Uppercase # L&       COPTIC CAPITAL LETTER CRYPTOGRAMMIC NI",
text! "2CBE          ; Uppercase # L&       COPTIC CAPITAL LETTER OLD COPTIC OOU",
text! "2CC0          ; Uppercase # L&       COPTIC CAPITAL LETTER SAMPI",
text! "2CC2          ; Uppercase # L&       COPTIC CAPITAL LETTER CROSSED SHEI",
text! "2CC4          ; Uppercase # L&       COPTIC CAPITAL LETTER OLD COPTIC SHEI",
text! "2CC6          ; Uppercase # L&       COPTIC CAPITAL LETTER OLD COPTIC ESH",
text! "2CC8          ; Uppercase # L&       COPTIC CAPITAL LETTER AKHMIMIC KHEI",
text! "2CCA          ; Uppercase # L&       COPTIC CAPITAL LETTER DIALECT-P HORI",
text! "2CCC          ; Uppercase # L&       COPTIC CAPITAL LETTER OLD COPTIC HORI",
text! "2CCE          ; Uppercase # L&       COPTIC CAPITAL LETTER OLD COPTIC HA",
text! "2CD0          ; Uppercase # L&       COPTIC CAPITAL LETTER L-SHAPED HA",
text! "2CD2          ; Uppercase # L&       COPTIC CAPITAL LETTER OLD COPTIC HEI",
text! "2CD4          ; Uppercase # L&       COPTIC CAPITAL LETTER OLD COPTIC HAT",
text! "2CD6          ; Uppercase # L&       COPTIC CAPITAL LETTER OLD COPTIC GANGIA",
text! "2CD8          ; Uppercase # L&       COPTIC CAPITAL LETTER OLD COPTIC DJA",
text! "2CDA          ; Uppercase # L&       COPTIC CAPITAL LETTER OLD COPTIC SHIMA",
text! "2CDC          ; Uppercase # L&       COPTIC CAPITAL LETTER OLD NUBIAN SHIMA",
text! "2CDE          ; Uppercase # L&       COPTIC CAPITAL LETTER OLD NUBIAN NGI",
text! "2CE0          ; Uppercase # L&       COPTIC CAPITAL LETTER OLD NUBIAN NYI",
text! "2CE2          ; Uppercase # L&       COPTIC CAPITAL LETTER OLD NUBIAN WAU",
text! "2CEB          ; Uppercase # L&       COPTIC CAPITAL LETTER CRYPTOGRAMMIC SHEI",
text! "2CED          ; Uppercase # L&       COPTIC CAPITAL LETTER CRYPTOGRAMMIC GANGIA",
text! "2CF2          ; Uppercase # L&       COPTIC CAPITAL LETTER BOHAIRIC KHEI",
text! "A640          ; Uppercase # L&       CYRILLIC CAPITAL LETTER ZEMLYA",
text! "A642          ; Uppercase # L&       CYRILLIC CAPITAL LETTER DZELO",
text! "A644          ; Uppercase # L&       CYRILLIC CAPITAL LETTER REVERSED DZE",
text! "A646          ; Uppercase # L&       CYRILLIC CAPITAL LETTER IOTA",
text! "A648          ; Uppercase # L&       CYRILLIC CAPITAL LETTER DJERV",
text! "A64A          ; Uppercase # L&       CYRILLIC CAPITAL LETTER MONOGRAPH UK",
text! "A64C          ; Uppercase # L&       CYRILLIC CAPITAL LETTER BROAD OMEGA",
text! "A64E          ; Uppercase # L&       CYRILLIC CAPITAL LETTER NEUTRAL YER",
text! "A650          ; Uppercase # L&       CYRILLIC CAPITAL LETTER YERU WITH BACK YER",
text! "A652          ; Uppercase # L&       CYRILLIC CAPITAL LETTER IOTIFIED YAT",
text! "A654          ; Uppercase # L&       CYRILLIC CAPITAL LETTER REVERSED YU",
text! "A656          ; Uppercase # L&       CYRILLIC CAPITAL LETTER IOTIFIED A",
text! "A658          ; Uppercase # L&       CYRILLIC CAPITAL LETTER CLOSED LITTLE YUS",
text! "A65A          ; Uppercase # L&       CYRILLIC CAPITAL LETTER BLENDED YUS",
text! "A65C          ; Uppercase # L&       CYRILLIC CAPITAL LETTER IOTIFIED CLOSED LITTLE YUS",
text! "A65E          ; Uppercase # L&       CYRILLIC CAPITAL LETTER YN",
text! "A660          ; Uppercase # L&       CYRILLIC CAPITAL LETTER REVERSED TSE"]

/-- lines 2689-2752 -/
def derivedCore42 : List Nat := [
text! "A662          ; Uppercase # L&       CYRILLIC CAPITAL LETTER SOFT DE",
text! "A664          ; Uppercase # L&       CYRILLIC CAPITAL LETTER SOFT EL",
text! "A666          ; Uppercase # L&       CYRILLIC CAPITAL LETTER SOFT EM",
text! "A668          ; Uppercase # L&       CYRILLIC CAPITAL LETTER MONOCULAR O",
text! "A66A          ; Uppercase # L&       CYRILLIC CAPITAL LETTER BINOCULAR O",
text! "A66C          ; Uppercase # L&       CYRILLIC CAPITAL LETTER DOUBLE MONOCULAR O",
text! "A680          ; Uppercase # L&       CYRILLIC CAPITAL LETTER DWE",
text! "A682          ; Uppercase # L&       CYRILLIC CAPITAL LETTER DZWE",
text! "A684          ; Uppercase # L&       CYRILLIC CAPITAL LETTER ZHWE",
text! "A686          ; Uppercase # L&       CYRILLIC CAPITAL LETTER CCHE",
text! "A688          ; Uppercase # L&       CYRILLIC CAPITAL LETTER DZZE",
text! "A68A          ; Uppercase # L&       CYRILLIC CAPITAL LETTER TE WITH MIDDLE HOOK",
text! "A68C          ; Uppercase # L&       CYRILLIC CAPITAL LETTER TWE",
text! "A68E          ; Uppercase # L&       CYRILLIC CAPITAL LETTER TSWE",
text! "A690          ; Uppercase # L&       CYRILLIC CAPITAL LETTER TSSE",
text! "A692          ; Uppercase # L&       CYRILLIC CAPITAL LETTER TCHE",
text! "A694          ; Uppercase # L&       CYRILLIC CAPITAL LETTER HWE",
text! "A696          ; Uppercase # L&       CYRILLIC CAPITAL LETTER SHWE",
text! "A698          ; Uppercase # L&       CYRILLIC CAPITAL LETTER DOUBLE O",
text! "A69A          ; Uppercase # L&       CYRILLIC CAPITAL LETTER CROSSED O",
text! "A722          ; Uppercase # L&       LATIN CAPITAL LETTER EGYPTOLOGICAL ALEF",
text! "A724          ; Uppercase # L&       LATIN CAPITAL LETTER EGYPTOLOGICAL AIN",
text! "A726          ; Uppercase # L&       LATIN CAPITAL LETTER HENG",
text! "A728          ; Uppercase # L&       LATIN CAPITAL LETTER TZ",
text! "A72A          ; Uppercase # L&       LATIN CAPITAL LETTER TRESILLO",
text! "A72C          ; Uppercase # L&       LATIN CAPITAL LETTER CUATRILLO",
text! "A72E          ; Uppercase # L&       LATIN CAPITAL LETTER CUATRILLO WITH COMMA",
text! "A732          ; Uppercase # L&       LATIN CAPITAL LETTER AA",
text! "A734          ; Uppercase # L&       LATIN CAPITAL LETTER AO",
text! "A736          ; Uppercase # L&       LATIN CAPITAL LETTER AU",
text! "A738          ; Uppercase # L&       LATIN CAPITAL LETTER AV",
text! "A73A          ; Uppercase # L&       LATIN CAPITAL LETTER AV WITH HORIZONTAL BAR",
text! "A73C          ; Uppercase # L&       LATIN CAPITAL LETTER AY",
text! "A73E          ; Uppercase # L&       LATIN CAPITAL LETTER REVERSED C WITH DOT",
text! "A740          ; Uppercase # L&       LATIN CAPITAL LETTER K WITH STROKE",
text! "A742          ; Uppercase # L&       LATIN CAPITAL LETTER K WITH DIAGONAL STROKE",
text! "A744          ; Uppercase # L&       LATIN CAPITAL LETTER K WITH STROKE AND DIAGONAL STROKE",
text! "A746          ; Uppercase # L&       LATIN CAPITAL LETTER BROKEN L",
text! "A748          ; Uppercase # L&       LATIN CAPITAL LETTER L WITH HIGH STROKE",
text! "A74A          ; Uppercase # L&       LATIN CAPITAL LETTER O WITH LONG STROKE OVERLAY",
text! "A74C          ; Uppercase # L&       LATIN CAPITAL LETTER O WITH LOOP",
text! "A74E          ; Uppercase # L&       LATIN CAPITAL LETTER OO",
text! "A750          ; Uppercase # L&       LATIN CAPITAL LETTER P WITH STROKE THROUGH DESCENDER",
text! "A752          ; Uppercase # L&       LATIN CAPITAL LETTER P WITH FLOURISH",
text! "A754          ; Uppercase # L&       LATIN CAPITAL LETTER P WITH SQUIRREL TAIL",
text! "A756          ; Uppercase # L&       LATIN CAPITAL LETTER Q WITH STROKE THROUGH DESCENDER",
text! "A758          ; Uppercase # L&       LATIN CAPITAL LETTER Q WITH DIAGONAL STROKE",
text! "A75A          ; Uppercase # L&       LATIN CAPITAL LETTER R ROTUNDA",
text! "A75C          ; Uppercase # L&       LATIN CAPITAL LETTER RUM ROTUNDA",
text! "A75E          ; Uppercase # L&       LATIN CAPITAL LETTER V WITH DIAGONAL STROKE",
text! "A760          ; Uppercase # L&       LATIN CAPITAL LETTER VY",
text! "A762          ; Uppercase # L&       LATIN CAPITAL LETTER VISIGOTHIC Z",
text! "A764          ; Uppercase # L&       LATIN CAPITAL LETTER THORN WITH STROKE",
text! "A766          ; Uppercase # L&       LATIN CAPITAL LETTER THORN WITH STROKE THROUGH DESCENDER",
text! "A768          ; Uppercase # L&       LATIN CAPITAL LETTER VEND",
text! "A76A          ; Uppercase # L&       LATIN CAPITAL LETTER ET",
text! "A76C          ; Uppercase # L&       LATIN CAPITAL LETTER IS",
text! "A76E          ; Uppercase # L&       LATIN CAPITAL LETTER CON",
text! "A779          ; Uppercase # L&       LATIN CAPITAL LETTER INSULAR D",
text! "A77B          ; Uppercase # L&       LATIN CAPITAL LETTER INSULAR F",
text! "A77D..A77E    ; Uppercase # L&   [2] LATIN CAPITAL LETTER INSULAR G..LATIN CAPITAL LETTER TURNED INSULAR G",
text! "A780          ; Uppercase # L&       LATIN CAPITAL LETTER TURNED L",
text! "A782          ; Uppercase # L&       LATIN CAPITAL LETTER INSULAR R",
text! "A784          ; Uppercase # L&       LATIN CAPITAL LETTER INSULAR S"]

/-- lines 2753-2816 -/
def derivedCore43 : List Nat := [
text! "A786          ; Uppercase # L&       LATIN CAPITAL LETTER INSULAR T",
text! "A78B          ; Uppercase # L&       LATIN CAPITAL LETTER SALTILLO",
text! "A78D          ; Uppercase # L&       LATIN CAPITAL LETTER TURNED H",
text! "A790          ; Uppercase # L&       LATIN CAPITAL LETTER N WITH DESCENDER",
text! "A792          ; Uppercase # L&       LATIN CAPITAL LETTER C WITH BAR",
text! "A796          ; Uppercase # L&       LATIN CAPITAL LETTER B WITH FLOURISH",
text! "A798          ; Uppercase # L&       LATIN CAPITAL LETTER F WITH STROKE",
text! "A79A          ; Uppercase # L&       LATIN CAPITAL LETTER VOLAPUK AE",
text! "A79C          ; Uppercase # L&       LATIN CAPITAL LETTER VOLAPUK OE",
text! "A79E          ; Uppercase # L&       LATIN CAPITAL LETTER VOLAPUK UE",
text! "A7A0          ; Uppercase # L&       LATIN CAPITAL LETTER G WITH OBLIQUE STROKE",
text! "A7A2          ; Uppercase # L&       LATIN CAPITAL LETTER K WITH OBLIQUE STROKE",
text! "A7A4          ; Uppercase # L&       LATIN CAPITAL LETTER N WITH OBLIQUE STROKE",
text! "A7A6          ; Uppercase # L&       LATIN CAPITAL LETTER R WITH OBLIQUE STROKE",
text! "A7A8          ; Uppercase # L&       LATIN CAPITAL LETTER S WITH OBLIQUE STROKE",
text! "A7AA..A7AE    ; Uppercase # L&   [5] LATIN CAPITAL LETTER H WITH HOOK..LATIN CAPITAL LETTER SMALL CAPITAL I",
text! "A7B0..A7B4    ; Uppercase # L&   [5] LATIN CAPITAL LETTER TURNED K..LATIN CAPITAL LETTER BETA",
text! "A7B6          ; Uppercase # L&       LATIN CAPITAL LETTER OMEGA",
text! "A7B8          ; Uppercase # L&       LATIN CAPITAL LETTER U WITH STROKE",
text! "A7BA          ; Uppercase # L&       LATIN CAPITAL LETTER GLOTTAL A",
text! "A7BC          ; Uppercase # L&       LATIN CAPITAL LETTER GLOTTAL I",
text! "A7BE          ; Uppercase # L&       LATIN CAPITAL LETTER GLOTTAL U",
text! "A7C0          ; Uppercase # L&       LATIN CAPITAL LETTER OLD POLISH O",
text! "A7C2          ; Uppercase # L&       LATIN CAPITAL LETTER ANGLICANA W",
text! "A7C4..A7C7    ; Uppercase # L&   [4] LATIN CAPITAL LETTER C WITH PALATAL HOOK..LATIN CAPITAL LETTER D WITH SHORT STROKE OVERLAY",
text! "A7C9          ; Uppercase # L&       LATIN CAPITAL LETTER S WITH SHORT STROKE OVERLAY",
text! "A7CB..A7CC    ; Uppercase # L&   [2] LATIN CAPITAL LETTER RAMS HORN..LATIN CAPITAL LETTER S WITH DIAGONAL STROKE",
text! "A7CE          ; Uppercase # L&       LATIN CAPITAL LETTER PHARYNGEAL VOICED FRICATIVE",
text! "A7D0          ; Uppercase # L&       LATIN CAPITAL LETTER CLOSED INSULAR G",
text! "A7D2          ; Uppercase # L&       LATIN CAPITAL LETTER DOUBLE THORN",
text! "A7D4          ; Uppercase # L&       LATIN CAPITAL LETTER DOUBLE WYNN",
text! "A7D6          ; Uppercase # L&       LATIN CAPITAL LETTER MIDDLE SCOTS S",
text! "A7D8          ; Uppercase # L&       LATIN CAPITAL LETTER SIGMOID S",
text! "A7DA          ; Uppercase # L&       LATIN CAPITAL LETTER LAMBDA",
text! "A7DC          ; Uppercase # L&       LATIN CAPITAL LETTER LAMBDA WITH STROKE",
text! "A7F5          ; Uppercase # L&       LATIN CAPITAL LETTER REVERSED HALF H",
text! "FF21..FF3A    ; Uppercase # L&  [26] FULLWIDTH LATIN CAPITAL LETTER A..FULLWIDTH LATIN CAPITAL LETTER Z",
text! "10400..10427  ; Uppercase # L&  [40] DESERET CAPITAL LETTER LONG I..DESERET CAPITAL LETTER EW",
text! "104B0..104D3  ; Uppercase # L&  [36] OSAGE CAPITAL LETTER A..OSAGE CAPITAL LETTER ZHA",
text! "10570..1057A  ; Uppercase # L&  [11] VITHKUQI CAPITAL LETTER A..VITHKUQI CAPITAL LETTER GA",
text! "1057C..1058A  ; Uppercase # L&  [15] VITHKUQI CAPITAL LETTER HA..VITHKUQI CAPITAL LETTER RE",
text! "1058C..10592  ; Uppercase # L&   [7] VITHKUQI CAPITAL LETTER SE..VITHKUQI CAPITAL LETTER XE",
text! "10594..10595  ; Uppercase # L&   [2] VITHKUQI CAPITAL LETTER Y..VITHKUQI CAPITAL LETTER ZE",
text! "10C80..10CB2  ; Uppercase # L&  [51] OLD HUNGARIAN CAPITAL LETTER A..OLD HUNGARIAN CAPITAL LETTER US",
text! "10D50..10D65  ; Uppercase # L&  [22] GARAY CAPITAL LETTER A..GARAY CAPITAL LETTER OLD NA",
text! "118A0..118BF  ; Uppercase # L&  [32] WARANG CITI CAPITAL LETTER NGAA..WARANG CITI CAPITAL LETTER VIYO",
text! "16E40..16E5F  ; Uppercase # L&  [32] MEDEFAIDRIN CAPITAL LETTER M..MEDEFAIDRIN CAPITAL LETTER Y",
text! "16EA0..16EB8  ; Uppercase # L&  [25] BERIA ERFE CAPITAL LETTER ARKAB..BERIA ERFE CAPITAL LETTER AY",
text! "1D400..1D419  ; Uppercase # L&  [26] MATHEMATICAL BOLD CAPITAL A..MATHEMATICAL BOLD CAPITAL Z",
text! "1D434..1D44D  ; Uppercase # L&  [26] MATHEMATICAL ITALIC CAPITAL A..MATHEMATICAL ITALIC CAPITAL Z",
text! "1D468..1D481  ; Uppercase # L&  [26] MATHEMATICAL BOLD ITALIC CAPITAL A..MATHEMATICAL BOLD ITALIC CAPITAL Z",
text! "1D49C         ; Uppercase # L&       MATHEMATICAL SCRIPT CAPITAL A",
text! "1D49E..1D49F  ; Uppercase # L&   [2] MATHEMATICAL SCRIPT CAPITAL C..MATHEMATICAL SCRIPT CAPITAL D",
text! "1D4A2         ; Uppercase # L&       MATHEMATICAL SCRIPT CAPITAL G",
text! "1D4A5..1D4A6  ; Uppercase # L&   [2] MATHEMATICAL SCRIPT CAPITAL J..MATHEMATICAL SCRIPT CAPITAL K",
text! "1D4A9..1D4AC  ; Uppercase # L&   [4] MATHEMATICAL SCRIPT CAPITAL N..MATHEMATICAL SCRIPT CAPITAL Q",
text! "1D4AE..1D4B5  ; Uppercase # L&   [8] MATHEMATICAL SCRIPT CAPITAL S..MATHEMATICAL SCRIPT CAPITAL Z",
text! "1D4D0..1D4E9  ; Uppercase # L&  [26] MATHEMATICAL BOLD SCRIPT CAPITAL A..MATHEMATICAL BOLD SCRIPT CAPITAL Z",
text! "1D504..1D505  ; Uppercase # L&   [2] MATHEMATICAL FRAKTUR CAPITAL A..MATHEMATICAL FRAKTUR CAPITAL B",
text! "1D507..1D50A  ; Uppercase # L&   [4] MATHEMATICAL FRAKTUR CAPITAL D..MATHEMATICAL FRAKTUR CAPITAL G",
text! "1D50D..1D514  ; Uppercase # L&   [8] MATHEMATICAL FRAKTUR CAPITAL J..MATHEMATICAL FRAKTUR CAPITAL Q",
text! "1D516..1D51C  ; Uppercase # L&   [7] MATHEMATICAL FRAKTUR CAPITAL S..MATHEMATICAL FRAKTUR CAPITAL Y",
text! "1D538..1D539  ; Uppercase # L&   [2] MATHEMATICAL DOUBLE-STRUCK CAPITAL A..MATHEMATICAL DOUBLE-STRUCK CAPITAL B",
text! "1D53B..1D53E  ; Uppercase # L&   [4] MATHEMATICAL DOUBLE-STRUCK CAPITAL D..MATHEMATICAL DOUBLE-STRUCK CAPITAL G"]

/-- lines 2817-2880 -/
def derivedCore44 : List Nat := [
text! "1D540..1D544  ; Uppercase # L&   [5] MATHEMATICAL DOUBLE-STRUCK CAPITAL I..MATHEMATICAL DOUBLE-STRUCK CAPITAL M",
text! "1D546         ; Uppercase # L&       MATHEMATICAL DOUBLE-STRUCK CAPITAL O",
text! "1D54A..1D550  ; Uppercase # L&   [7] MATHEMATICAL DOUBLE-STRUCK CAPITAL S..MATHEMATICAL DOUBLE-STRUCK CAPITAL Y",
text! "1D56C..1D585  ; Uppercase # L&  [26] MATHEMATICAL BOLD FRAKTUR CAPITAL A..MATHEMATICAL BOLD FRAKTUR CAPITAL Z",
text! "1D5A0..1D5B9  ; Uppercase # L&  [26] MATHEMATICAL SANS-SERIF CAPITAL A..MATHEMATICAL SANS-SERIF CAPITAL Z",
text! "1D5D4..1D5ED  ; Uppercase # L&  [26] MATHEMATICAL SANS-SERIF BOLD CAPITAL A..MATHEMATICAL SANS-SERIF BOLD CAPITAL Z",
text! "1D608..1D621  ; Uppercase # L&  [26] MATHEMATICAL SANS-SERIF ITALIC CAPITAL A..MATHEMATICAL SANS-SERIF ITALIC CAPITAL Z",
text! "1D63C..1D655  ; Uppercase # L&  [26] MATHEMATICAL SANS-SERIF BOLD ITALIC CAPITAL A..MATHEMATICAL SANS-SERIF BOLD ITALIC CAPITAL Z",
text! "1D670..1D689  ; Uppercase # L&  [26] MATHEMATICAL MONOSPACE CAPITAL A..MATHEMATICAL MONOSPACE CAPITAL Z",
text! "1D6A8..1D6C0  ; Uppercase # L&  [25] MATHEMATICAL BOLD CAPITAL ALPHA..MATHEMATICAL BOLD CAPITAL OMEGA",
text! "1D6E2..1D6FA  ; Uppercase # L&  [25] MATHEMATICAL ITALIC CAPITAL ALPHA..MATHEMATICAL ITALIC CAPITAL OMEGA",
text! "1D71C..1D734  ; Uppercase # L&  [25] MATHEMATICAL BOLD ITALIC CAPITAL ALPHA..MATHEMATICAL BOLD ITALIC CAPITAL OMEGA",
text! "1D756..1D76E  ; Uppercase # L&  [25] MATHEMATICAL SANS-SERIF BOLD CAPITAL ALPHA..MATHEMATICAL SANS-SERIF BOLD CAPITAL OMEGA",
text! "1D790..1D7A8  ; Uppercase # L&  [25] MATHEMATICAL SANS-SERIF BOLD ITALIC CAPITAL ALPHA..MATHEMATICAL SANS-SERIF BOLD ITALIC CAPITAL OMEGA",
text! "1D7CA         ; Uppercase # L&       MATHEMATICAL BOLD CAPITAL DIGAMMA",
text! "1E900..1E921  ; Uppercase # L&  [34] ADLAM CAPITAL LETTER ALIF..ADLAM CAPITAL LETTER SHA",
text! "1F130..1F149  ; Uppercase # So  [26] SQUARED LATIN CAPITAL LETTER A..SQUARED LATIN CAPITAL LETTER Z",
text! "1F150..1F169  ; Uppercase # So  [26] NEGATIVE CIRCLED LATIN CAPITAL LETTER A..NEGATIVE CIRCLED LATIN CAPITAL LETTER Z",
text! "1F170..1F189  ; Uppercase # So  [26] NEGATIVE SQUARED LATIN CAPITAL LETTER A..NEGATIVE SQUARED LATIN CAPITAL LETTER Z",
text! "",
text! "# Total code points: 2006",
text! "",
text! "# ================================================",
text! "",
text! "# Derived Property:   Cased (Cased)",
text! "#  As defined by Unicode Standard Definition D135",
text! "#  C has the Lowercase or Uppercase property or has a General_Category value of Titlecase_Letter.",
text! "",
text! "0041..005A    ; Cased # L&  [26] LATIN CAPITAL LETTER A..LATIN CAPITAL LETTER Z",
text! "0061..007A    ; Cased # L&  [26] LATIN SMALL LETTER A..LATIN SMALL LETTER Z",
text! "00AA          ; Cased # Lo       FEMININE ORDINAL INDICATOR",
text! "00B5          ; Cased # L&       MICRO SIGN",
text! "00BA          ; Cased # Lo       MASCULINE ORDINAL INDICATOR",
text! "00C0..00D6    ; Cased # L&  [23] LATIN CAPITAL LETTER A WITH GRAVE..LATIN CAPITAL LETTER O WITH DIAERESIS",
text! "00D8..00F6    ; Cased # L&  [31] LATIN CAPITAL LETTER O WITH STROKE..LATIN SMALL LETTER O WITH DIAERESIS",
text! "00F8..01BA    ; Cased # L& [195] LATIN SMALL LETTER O WITH STROKE..LATIN SMALL LETTER EZH WITH TAIL",
text! "01BC..01BF    ; Cased # L&   [4] LATIN CAPITAL LETTER TONE FIVE..LATIN LETTER WYNN",
text! "01C4..0293    ; Cased # L& [208] LATIN CAPITAL LETTER DZ WITH CARON..LATIN SMALL LETTER EZH WITH CURL",
text! "0296..02AF    ; Cased # L&  [26] LATIN LETTER INVERTED GLOTTAL STOP..LATIN SMALL LETTER TURNED H WITH FISHHOOK AND TAIL",
text! "02B0..02B8    ; Cased # Lm   [9] MODIFIER LETTER SMALL H..MODIFIER LETTER SMALL Y",
text! "02C0..02C1    ; Cased # Lm   [2] MODIFIER LETTER GLOTTAL STOP..MODIFIER LETTER REVERSED GLOTTAL STOP",
text! "02E0..02E4    ; Cased # Lm   [5] MODIFIER LETTER SMALL GAMMA..MODIFIER LETTER SMALL REVERSED GLOTTAL STOP",
text! "0345          ; Cased # Mn       COMBINING GREEK YPOGEGRAMMENI",
text! "0370..0373    ; Cased # L&   [4] GREEK CAPITAL LETTER HETA..GREEK SMALL LETTER ARCHAIC SAMPI",
text! "0376..0377    ; Cased # L&   [2] GREEK CAPITAL LETTER PAMPHYLIAN DIGAMMA..GREEK SMALL LETTER PAMPHYLIAN DIGAMMA",
text! "037A          ; Cased # Lm       GREEK YPOGEGRAMMENI",
text! "037B..037D    ; Cased # L&   [3] GREEK SMALL REVERSED LUNATE SIGMA SYMBOL..GREEK SMALL REVERSED DOTTED LUNATE SIGMA SYMBOL",
text! "037F          ; Cased # L&       GREEK CAPITAL LETTER YOT",
text! "0386          ; Cased # L&       GREEK CAPITAL LETTER ALPHA WITH TONOS",
text! "0388..038A    ; Cased # L&   [3] GREEK CAPITAL LETTER EPSILON WITH TONOS..GREEK CAPITAL LETTER IOTA WITH TONOS",
text! "038C          ; Cased # L&       GREEK CAPITAL LETTER OMICRON WITH TONOS",
text! "038E..03A1    ; Cased # L&  [20] GREEK CAPITAL LETTER UPSILON WITH TONOS..GREEK CAPITAL LETTER RHO",
text! "03A3..03F5    ; Cased # L&  [83] GREEK CAPITAL LETTER SIGMA..GREEK LUNATE EPSILON SYMBOL",
text! "03F7..0481    ; Cased # L& [139] GREEK CAPITAL LETTER SHO..CYRILLIC SMALL LETTER KOPPA",
text! "048A..052F    ; Cased # L& [166] CYRILLIC CAPITAL LETTER SHORT I WITH TAIL..CYRILLIC SMALL LETTER EL WITH DESCENDER",
text! "0531..0556    ; Cased # L&  [38] ARMENIAN CAPITAL LETTER AYB..ARMENIAN CAPITAL LETTER FEH",
text! "0560..0588    ; Cased # L&  [41] ARMENIAN SMALL LETTER TURNED AYB..ARMENIAN SMALL LETTER YI WITH STROKE",
text! "10A0..10C5    ; Cased # L&  [38] GEORGIAN CAPITAL LETTER AN..GEORGIAN CAPITAL LETTER HOE",
text! "10C7          ; Cased # L&       GEORGIAN CAPITAL LETTER YN",
text! "10CD          ; Cased # L&       GEORGIAN CAPITAL LETTER AEN",
text! "10D0..10FA    ; Cased # L&  [43] GEORGIAN LETTER AN..GEORGIAN LETTER AIN",
text! "10FC          ; Cased # Lm       MODIFIER LETTER GEORGIAN NAR",
text! "10FD..10FF    ; Cased # L&   [3] GEORGIAN LETTER AEN..GEORGIAN LETTER LABIAL SIGN",
text! "13A0..13F5    ; Cased # L&  [86] CHEROKEE LETTER A..CHEROKEE LETTER MV"]

/-- lines 2881-2944 -/
def derivedCore45 : List Nat := [
text! "13F8..13FD    ; Cased # L&   [6] CHEROKEE SMALL LETTER YE..CHEROKEE SMALL LETTER MV",
text! "1C80..1C8A    ; Cased # L&  [11] CYRILLIC SMALL LETTER ROUNDED VE..CYRILLIC SMALL LETTER TJE",
text! "1C90..1CBA    ; Cased # L&  [43] GEORGIAN MTAVRULI CAPITAL LETTER AN..GEORGIAN MTAVRULI CAPITAL LETTER AIN",
text! "1CBD..1CBF    ; Cased # L&   [3] GEORGIAN MTAVRULI CAPITAL LETTER AEN..GEORGIAN MTAVRULI CAPITAL LETTER LABIAL SIGN",
text! "1D00..1D2B    ; Cased # L&  [44] LATIN LETTER SMALL CAPITAL A..CYRILLIC LETTER SMALL CAPITAL EL",
text! "1D2C..1D6A    ; Cased # Lm  [63] MODIFIER LETTER CAPITAL A..GREEK SUBSCRIPT SMALL LETTER CHI",
text! "1D6B..1D77    ; Cased # L&  [13] LATIN SMALL LETTER UE..LATIN SMALL LETTER TURNED G",
text! "1D78          ; Cased # Lm       MODIFIER LETTER CYRILLIC EN",
text! "1D79..1D9A    ; Cased # L&  [34] LATIN SMALL LETTER INSULAR G..LATIN SMALL LETTER EZH WITH RETROFLEX HOOK",
text! "1D9B..1DBF    ; Cased # Lm  [37] MODIFIER LETTER SMALL TURNED ALPHA..MODIFIER LETTER SMALL THETA",
text! "1E00..1F15    ; Cased # L& [278] LATIN CAPITAL LETTER A WITH RING BELOW..GREEK SMALL LETTER EPSILON WITH DASIA AND OXIA",
text! "1F18..1F1D    ; Cased # L&   [6] GREEK CAPITAL LETTER EPSILON WITH PSILI..GREEK CAPITAL LETTER EPSILON WITH DASIA AND OXIA",
text! "1F20..1F45    ; Cased # L&  [38] GREEK SMALL LETTER ETA WITH PSILI..GREEK SMALL LETTER OMICRON WITH DASIA AND OXIA",
text! "1F48..1F4D    ; Cased # L&   [6] GREEK CAPITAL LETTER OMICRON WITH PSILI..GREEK CAPITAL LETTER OMICRON WITH DASIA AND OXIA",
text! "1F50..1F57    ; Cased # L&   [8] GREEK SMALL LETTER UPSILON WITH PSILI..GREEK SMALL LETTER UPSILON WITH DASIA AND PERISPOMENI",
text! "1F59          ; Cased # L&       GREEK CAPITAL LETTER UPSILON WITH DASIA",
text! "1F5B          ; Cased # L&       GREEK CAPITAL LETTER UPSILON WITH DASIA AND VARIA",
text! "1F5D          ; Cased # L&       GREEK CAPITAL LETTER UPSILON WITH DASIA AND OXIA",
text! "1F5F..1F7D    ; Cased # L&  [31] GREEK CAPITAL LETTER UPSILON WITH DASIA AND PERISPOMENI..GREEK SMALL LETTER OMEGA WITH OXIA",
text! "1F80..1FB4    ; Cased # L&  [53] GREEK SMALL LETTER ALPHA WITH PSILI AND YPOGEGRAMMENI..GREEK SMALL LETTER ALPHA WITH OXIA AND YPOGEGRAMMENI",
text! "1FB6..1FBC    ; Cased # L&   [7] GREEK SMALL LETTER ALPHA WITH PERISPOMENI..GREEK CAPITAL LETTER ALPHA WITH PROSGEGRAMMENI",
text! "1FBE          ; Cased # L&       GREEK PROSGEGRAMMENI",
text! "1FC2..1FC4    ; Cased # L&   [3] GREEK SMALL LETTER ETA WITH VARIA AND YPOGEGRAMMENI..GREEK SMALL LETTER ETA WITH OXIA AND YPOGEGRAMMENI",
text! "1FC6..1FCC    ; Cased # L&   [7] GREEK SMALL LETTER ETA WITH PERISPOMENI..GREEK CAPITAL LETTER ETA WITH PROSGEGRAMMENI",
text! "1FD0..1FD3    ; Cased # L&   [4] GREEK SMALL LETTER IOTA WITH VRACHY..GREEK SMALL LETTER IOTA WITH DIALYTIKA AND OXIA",
text! "1FD6..1FDB    ; Cased # L&   [6] GREEK SMALL LETTER IOTA WITH PERISPOMENI..GREEK CAPITAL LETTER IOTA WITH OXIA",
text! "1FE0..1FEC    ; Cased # L&  [13] GREEK SMALL LETTER UPSILON WITH VRACHY..GREEK CAPITAL LETTER RHO WITH DASIA",
text! "1FF2..1FF4    ; Cased # L&   [3] GREEK SMALL LETTER OMEGA WITH VARIA AND YPOGEGRAMMENI..GREEK SMALL LETTER OMEGA WITH OXIA AND YPOGEGRAMMENI",
text! "1FF6..1FFC    ; Cased # L&   [7] GREEK SMALL LETTER OMEGA WITH PERISPOMENI..GREEK CAPITAL LETTER OMEGA WITH PROSGEGRAMMENI",
text! "2071          ; Cased # Lm       SUPERSCRIPT LATIN SMALL LETTER I",
text! "207F          ; Cased # Lm       SUPERSCRIPT LATIN SMALL LETTER N",
text! "2090..209C    ; Cased # Lm  [13] LATIN SUBSCRIPT SMALL LETTER A..LATIN SUBSCRIPT SMALL LETTER T",
text! "2102          ; Cased # L&       DOUBLE-STRUCK CAPITAL C",
text! "2107          ; Cased # L&       EULER CONSTANT",
text! "210A..2113    ; Cased # L&  [10] SCRIPT SMALL G..SCRIPT SMALL L",
text! "2115          ; Cased # L&       DOUBLE-STRUCK CAPITAL N",
text! "2119..211D    ; Cased # L&   [5] DOUBLE-STRUCK CAPITAL P..DOUBLE-STRUCK CAPITAL R",
text! "2124          ; Cased # L&       DOUBLE-STRUCK CAPITAL Z",
text! "2126          ; Cased # L&       OHM SIGN",
text! "2128          ; Cased # L&       BLACK-LETTER CAPITAL Z",
text! "212A..212D    ; Cased # L&   [4] KELVIN SIGN..BLACK-LETTER CAPITAL C",
text! "212F..2134    ; Cased # L&   [6] SCRIPT SMALL E..SCRIPT SMALL O",
text! "2139          ; Cased # L&       INFORMATION SOURCE",
text! "213C..213F    ; Cased # L&   [4] DOUBLE-STRUCK SMALL PI..DOUBLE-STRUCK CAPITAL PI",
text! "2145..2149    ; Cased # L&   [5] DOUBLE-STRUCK ITALIC CAPITAL D..DOUBLE-STRUCK ITALIC SMALL J",
text! "214E          ; Cased # L&       TURNED SMALL F",
text! "2160..217F    ; Cased # Nl  [32] ROMAN NUMERAL ONE..SMALL ROMAN NUMERAL ONE THOUSAND",
text! "2183..2184    ; Cased # L&   [2] ROMAN NUMERAL REVERSED ONE HUNDRED..LATIN SMALL LETTER REVERSED C",
text! "24B6..24E9    ; Cased # So  [52] CIRCLED LATIN CAPITAL LETTER A..CIRCLED LATIN SMALL LETTER Z",
text! "2C00..2C7B    ; Cased # L& [124] GLAGOLITIC CAPITAL LETTER AZU..LATIN LETTER SMALL CAPITAL TURNED E",
text! "2C7C..2C7D    ; Cased # Lm   [2] LATIN SUBSCRIPT SMALL LETTER J..MODIFIER LETTER CAPITAL V",
text! "2C7E..2CE4    ; Cased # L& [103] LATIN CAPITAL LETTER S WITH SWASH TAIL..COPTIC SYMBOL KAI",
text! "2CEB..2CEE    ; Cased # L&   [4] COPTIC CAPITAL LETTER CRYPTOGRAMMIC SHEI..COPTIC SMALL LETTER CRYPTOGRAMMIC GANGIA",
text! "2CF2..2CF3    ; Cased # L&   [2] COPTIC CAPITAL LETTER BOHAIRIC KHEI..COPTIC SMALL LETTER BOHAIRIC KHEI",
text! "2D00..2D25    ; Cased # L&  [38] GEORGIAN SMALL LETTER AN..GEORGIAN SMALL LETTER HOE",
text! "2D27          ; Cased # L&       GEORGIAN SMALL LETTER YN",
text! "2D2D          ; Cased # L&       GEORGIAN SMALL LETTER AEN",
text! "A640..A66D    ; Cased # L&  [46] CYRILLIC CAPITAL LETTER ZEMLYA..CYRILLIC SMALL LETTER DOUBLE MONOCULAR O",
text! "A680..A69B    ; Cased # L&  [28] CYRILLIC CAPITAL LETTER DWE..CYRILLIC SMALL LETTER CROSSED O",
text! "A69C..A69D    ; Cased # Lm   [2] MODIFIER LETTER CYRILLIC HARD SIGN..MODIFIER LETTER CYRILLIC SOFT SIGN",
text! "A722..A76F    ; Cased # L&  [78] LATIN CAPITAL LETTER EGYPTOLOGICAL ALEF..LATIN SMALL LETTER CON",
text! "A770          ; Cased # Lm       MODIFIER LETTER US",
text! "A771..A787    ; Cased # L&  [23] LATIN SMALL LETTER DUM..LATIN SMALL LETTER INSULAR T",
text! "A78B..A78E    ; Cased # L&   [4] LATIN CAPITAL LETTER SALTILLO..LATIN SMALL LETTER L WITH RETROFLEX HOOK AND BELT"]

/-- lines 2945-3008 -/
def derivedCore46 : List Nat := [
text! "A790..A7DC    ; Cased # L&  [77] LATIN CAPITAL LETTER N WITH DESCENDER..LATIN CAPITAL LETTER LAMBDA WITH STROKE",
text! "A7F1..A7F4    ; Cased # Lm   [4] MODIFIER LETTER CAPITAL S..MODIFIER LETTER CAPITAL Q",
text! "A7F5..A7F6    ; Cased # L&   [2] LATIN CAPITAL LETTER REVERSED HALF H..LATIN SMALL LETTER REVERSED HALF H",
text! "A7F8..A7F9    ; Cased # Lm   [2] MODIFIER LETTER CAPITAL H WITH STROKE..MODIFIER LETTER SMALL LIGATURE OE",
text! "A7FA          ; Cased # L&       LATIN LETTER SMALL CAPITAL TURNED M",
text! "AB30..AB5A    ; Cased # L&  [43] LATIN SMALL LETTER BARRED ALPHA..LATIN SMALL LETTER Y WITH SHORT RIGHT LEG",
text! "AB5C..AB5F    ; Cased # Lm   [4] MODIFIER LETTER SMALL HENG..MODIFIER LETTER SMALL U WITH LEFT HOOK",
text! "AB60..AB68    ; Cased # L&   [9] LATIN SMALL LETTER SAKHA YAT..LATIN SMALL LETTER TURNED R WITH MIDDLE TILDE",
text! "AB69          ; Cased # Lm       MODIFIER LETTER SMALL TURNED W",
text! "AB70..ABBF    ; Cased # L&  [80] CHEROKEE SMALL LETTER A..CHEROKEE SMALL LETTER YA",
text! "FB00..FB06    ; Cased # L&   [7] LATIN SMALL LIGATURE FF..LATIN SMALL LIGATURE ST",
text! "FB13..FB17    ; Cased # L&   [5] ARMENIAN SMALL LIGATURE MEN NOW..ARMENIAN SMALL LIGATURE MEN XEH",
text! "FF21..FF3A    ; Cased # L&  [26] FULLWIDTH LATIN CAPITAL LETTER A..FULLWIDTH LATIN CAPITAL LETTER Z",
text! "FF41..FF5A    ; Cased # L&  [26] FULLWIDTH LATIN SMALL LETTER A..FULLWIDTH LATIN SMALL LETTER Z",
text! "10400..1044F  ; Cased # L&  [80] DESERET CAPITAL LETTER LONG I..DESERET SMALL LETTER EW",
text! "104B0..104D3  ; Cased # L&  [36] OSAGE CAPITAL LETTER A..OSAGE CAPITAL LETTER ZHA",
text! "104D8..104FB  ; Cased # L&  [36] OSAGE SMALL LETTER A..OSAGE SMALL LETTER ZHA",
text! "10570..1057A  ; Cased # L&  [11] VITHKUQI CAPITAL LETTER A..VITHKUQI CAPITAL LETTER GA",
text! "1057C..1058A  ; Cased # L&  [15] VITHKUQI CAPITAL LETTER HA..VITHKUQI CAPITAL LETTER RE",
text! "1058C..10592  ; Cased # L&   [7] VITHKUQI CAPITAL LETTER SE..VITHKUQI CAPITAL LETTER XE",
text! "10594..10595  ; Cased # L&   [2] VITHKUQI CAPITAL LETTER Y..VITHKUQI CAPITAL LETTER ZE",
text! "10597..105A1  ; Cased # L&  [11] VITHKUQI SMALL LETTER A..VITHKUQI SMALL LETTER GA",
text! "105A3..105B1  ; Cased # L&  [15] VITHKUQI SMALL LETTER HA..VITHKUQI SMALL LETTER RE",
text! "105B3..105B9  ; Cased # L&   [7] VITHKUQI SMALL LETTER SE..VITHKUQI SMALL LETTER XE",
text! "105BB..105BC  ; Cased # L&   [2] VITHKUQI SMALL LETTER Y..VITHKUQI SMALL LETTER ZE",
text! "10780         ; Cased # Lm       MODIFIER LETTER SMALL CAPITAL AA",
text! "10783..10785  ; Cased # Lm   [3] MODIFIER LETTER SMALL AE..MODIFIER LETTER SMALL B WITH HOOK",
text! "10787..107B0  ; Cased # Lm  [42] MODIFIER LETTER SMALL DZ DIGRAPH..MODIFIER LETTER SMALL V WITH RIGHT HOOK",
text! "107B2..107BA  ; Cased # Lm   [9] MODIFIER LETTER SMALL CAPITAL Y..MODIFIER LETTER SMALL S WITH CURL",
text! "10C80..10CB2  ; Cased # L&  [51] OLD HUNGARIAN CAPITAL LETTER A..OLD HUNGARIAN CAPITAL LETTER US",
text! "10CC0..10CF2  ; Cased # L&  [51] OLD HUNGARIAN SMALL LETTER A..OLD HUNGARIAN SMALL LETTER US",
text! "10D50..10D65  ; Cased # L&  [22] GARAY CAPITAL LETTER A..GARAY CAPITAL LETTER OLD NA",
text! "10D70..10D85  ; Cased # L&  [22] GARAY SMALL LETTER A..GARAY SMALL LETTER OLD NA",
text! "118A0..118DF  ; Cased # L&  [64] WARANG CITI CAPITAL LETTER NGAA..WARANG CITI SMALL LETTER VIYO",
text! "16E40..16E7F  ; Cased # L&  [64] MEDEFAIDRIN CAPITAL LETTER M..MEDEFAIDRIN SMALL LETTER Y",
text! "16EA0..16EB8  ; Cased # L&  [25] BERIA ERFE CAPITAL LETTER ARKAB..BERIA ERFE CAPITAL LETTER AY",
text! "16EBB..16ED3  ; Cased # L&  [25] BERIA ERFE SMALL LETTER ARKAB..BERIA ERFE SMALL LETTER AY",
text! "1D400..1D454  ; Cased # L&  [85] MATHEMATICAL BOLD CAPITAL A..MATHEMATICAL ITALIC SMALL G",
text! "1D456..1D49C  ; Cased # L&  [71] MATHEMATICAL ITALIC SMALL I..MATHEMATICAL SCRIPT CAPITAL A",
text! "1D49E..1D49F  ; Cased # L&   [2] MATHEMATICAL SCRIPT CAPITAL C..MATHEMATICAL SCRIPT CAPITAL D",
text! "1D4A2         ; Cased # L&       MATHEMATICAL SCRIPT CAPITAL G",
text! "1D4A5..1D4A6  ; Cased # L&   [2] MATHEMATICAL SCRIPT CAPITAL J..MATHEMATICAL SCRIPT CAPITAL K",
text! "1D4A9..1D4AC  ; Cased # L&   [4] MATHEMATICAL SCRIPT CAPITAL N..MATHEMATICAL SCRIPT CAPITAL Q",
text! "1D4AE..1D4B9  ; Cased # L&  [12] MATHEMATICAL SCRIPT CAPITAL S..MATHEMATICAL SCRIPT SMALL D",
text! "1D4BB         ; Cased # L&       MATHEMATICAL SCRIPT SMALL F",
text! "1D4BD..1D4C3  ; Cased # L&   [7] MATHEMATICAL SCRIPT SMALL H..MATHEMATICAL SCRIPT SMALL N",
text! "1D4C5..1D505  ; Cased # L&  [65] MATHEMATICAL SCRIPT SMALL P..MATHEMATICAL FRAKTUR CAPITAL B",
text! "1D507..1D50A  ; Cased # L&   [4] MATHEMATICAL FRAKTUR CAPITAL D..MATHEMATICAL FRAKTUR CAPITAL G",
text! "1D50D..1D514  ; Cased # L&   [8] MATHEMATICAL FRAKTUR CAPITAL J..MATHEMATICAL FRAKTUR CAPITAL Q",
text! "1D516..1D51C  ; Cased # L&   [7] MATHEMATICAL FRAKTUR CAPITAL S..MATHEMATICAL FRAKTUR CAPITAL Y",
text! "1D51E..1D539  ; Cased # L&  [28] MATHEMATICAL FRAKTUR SMALL A..MATHEMATICAL DOUBLE-STRUCK CAPITAL B",
text! "1D53B..1D53E  ; Cased # L&   [4] MATHEMATICAL DOUBLE-STRUCK CAPITAL D..MATHEMATICAL DOUBLE-STRUCK CAPITAL G",
text! "1D540..1D544  ; Cased # L&   [5] MATHEMATICAL DOUBLE-STRUCK CAPITAL I..MATHEMATICAL DOUBLE-STRUCK CAPITAL M",
text! "1D546         ; Cased # L&       MATHEMATICAL DOUBLE-STRUCK CAPITAL O",
text! "1D54A..1D550  ; Cased # L&   [7] MATHEMATICAL DOUBLE-STRUCK CAPITAL S..MATHEMATICAL DOUBLE-STRUCK CAPITAL Y",
text! "1D552..1D6A5  ; Cased # L& [340] MATHEMATICAL DOUBLE-STRUCK SMALL A..MATHEMATICAL ITALIC SMALL DOTLESS J",
text! "1D6A8..1D6C0  ; Cased # L&  [25] MATHEMATICAL BOLD CAPITAL ALPHA..MATHEMATICAL BOLD CAPITAL OMEGA",
text! "1D6C2..1D6DA  ; Cased # L&  [25] MATHEMATICAL BOLD SMALL ALPHA..MATHEMATICAL BOLD SMALL OMEGA",
text! "1D6DC..1D6FA  ; Cased # L&  [31] MATHEMATICAL BOLD EPSILON SYMBOL..MATHEMATICAL ITALIC CAPITAL OMEGA",
text! "1D6FC..1D714  ; Cased # L&  [25] MATHEMATICAL ITALIC SMALL ALPHA..MATHEMATICAL ITALIC SMALL OMEGA",
text! "1D716..1D734  ; Cased # L&  [31] MATHEMATICAL ITALIC EPSILON SYMBOL..MATHEMATICAL BOLD ITALIC CAPITAL OMEGA",
text! "1D736..1D74E  ; Cased # L&  [25] MATHEMATICAL BOLD ITALIC SMALL ALPHA..MATHEMATICAL BOLD ITALIC SMALL OMEGA",
text! "1D750..1D76E  ; Cased # L&  [31] MATHEMATICAL BOLD ITALIC EPSILON SYMBOL..MATHEMATICAL SANS-SERIF BOLD CAPITAL OMEGA",
text! "1D770..1D788  ; Cased # L&  [25] MATHEMATICAL SANS-SERIF BOLD SMALL ALPHA..MATHEMATICAL SANS-SERIF BOLD SMALL OMEGA"]

/-- lines 3009-3072 -/
def derivedCore47 : List Nat := [
text! "1D78A..1D7A8  ; Cased # L&  [31] MATHEMATICAL SANS-SERIF BOLD EPSILON SYMBOL..MATHEMATICAL SANS-SERIF BOLD ITALIC CAPITAL OMEGA",
text! "1D7AA..1D7C2  ; Cased # L&  [25] MATHEMATICAL SANS-SERIF BOLD ITALIC SMALL ALPHA..MATHEMATICAL SANS-SERIF BOLD ITALIC SMALL OMEGA",
text! "1D7C4..1D7CB  ; Cased # L&   [8] MATHEMATICAL SANS-SERIF BOLD ITALIC EPSILON SYMBOL..MATHEMATICAL BOLD SMALL DIGAMMA",
text! "1DF00..1DF09  ; Cased # L&  [10] LATIN SMALL LETTER FENG DIGRAPH WITH TRILL..LATIN SMALL LETTER T WITH HOOK AND RETROFLEX HOOK",
text! "1DF0B..1DF1E  ; Cased # L&  [20] LATIN SMALL LETTER ESH WITH DOUBLE BAR..LATIN SMALL LETTER S WITH CURL",
text! "1DF25..1DF2A  ; Cased # L&   [6] LATIN SMALL LETTER D WITH MID-HEIGHT LEFT HOOK..LATIN SMALL LETTER T WITH MID-HEIGHT LEFT HOOK",
text! "1E030..1E06D  ; Cased # Lm  [62] MODIFIER LETTER CYRILLIC SMALL A..MODIFIER LETTER CYRILLIC SMALL STRAIGHT U WITH STROKE",
text! "1E900..1E943  ; Cased # L&  [68] ADLAM CAPITAL LETTER ALIF..ADLAM SMALL LETTER SHA",
text! "1F130..1F149  ; Cased # So  [26] SQUARED LATIN CAPITAL LETTER A..SQUARED LATIN CAPITAL LETTER Z",
text! "1F150..1F169  ; Cased # So  [26] NEGATIVE CIRCLED LATIN CAPITAL LETTER A..NEGATIVE CIRCLED LATIN CAPITAL LETTER Z",
text! "1F170..1F189  ; Cased # So  [26] NEGATIVE SQUARED LATIN CAPITAL LETTER A..NEGATIVE SQUARED LATIN CAPITAL LETTER Z",
text! "",
text! "# Total code points: 4632",
text! "",
text! "# ================================================",
text! "",
text! "# Derived Property:   Case_Ignorable (CI)",
text! "#  As defined by Unicode Standard Definition D136",
text! "#  C is defined to be case-ignorable if",
text! "#    Word_Break(C) = MidLetter or MidNumLet or Single_Quote, or",
text! "#    General_Category(C) = Nonspacing_Mark (Mn), Enclosing_Mark (Me), Format (Cf), Modifier_Letter (Lm), or Modifier_Symbol (Sk).",
text! "",
text! "0027          ; Case_Ignorable # Po       APOSTROPHE",
text! "002E          ; Case_Ignorable # Po       FULL STOP",
text! "003A          ; Case_Ignorable # Po       COLON",
text! "005E          ; Case_Ignorable # Sk       CIRCUMFLEX ACCENT",
text! "0060          ; Case_Ignorable # Sk       GRAVE ACCENT",
text! "00A8          ; Case_Ignorable # Sk       DIAERESIS",
text! "00AD          ; Case_Ignorable # Cf       SOFT HYPHEN",
text! "00AF          ; Case_Ignorable # Sk       MACRON",
text! "00B4          ; Case_Ignorable # Sk       ACUTE ACCENT",
text! "00B7          ; Case_Ignorable # Po       MIDDLE DOT",
text! "00B8          ; Case_Ignorable # Sk       CEDILLA",
text! "02B0..02C1    ; Case_Ignorable # Lm  [18] MODIFIER LETTER SMALL H..MODIFIER LETTER REVERSED GLOTTAL STOP",
text! "02C2..02C5    ; Case_Ignorable # Sk   [4] MODIFIER LETTER LEFT ARROWHEAD..MODIFIER LETTER DOWN ARROWHEAD",
text! "02C6..02D1    ; Case_Ignorable # Lm  [12] MODIFIER LETTER CIRCUMFLEX ACCENT..MODIFIER LETTER HALF TRIANGULAR COLON",
text! "02D2..02DF    ; Case_Ignorable # Sk  [14] MODIFIER LETTER CENTRED RIGHT HALF RING..MODIFIER LETTER CROSS ACCENT",
text! "02E0..02E4    ; Case_Ignorable # Lm   [5] MODIFIER LETTER SMALL GAMMA..MODIFIER LETTER SMALL REVERSED GLOTTAL STOP",
text! "02E5..02EB    ; Case_Ignorable # Sk   [7] MODIFIER LETTER EXTRA-HIGH TONE BAR..MODIFIER LETTER YANG DEPARTING TONE MARK",
text! "02EC          ; Case_Ignorable # Lm       MODIFIER LETTER VOICING",
text! "02ED          ; Case_Ignorable # Sk       MODIFIER LETTER UNASPIRATED",
text! "02EE          ; Case_Ignorable # Lm       MODIFIER LETTER DOUBLE APOSTROPHE",
text! "02EF..02FF    ; Case_Ignorable # Sk  [17] MODIFIER LETTER LOW DOWN ARROWHEAD..MODIFIER LETTER LOW LEFT ARROW",
text! "0300..036F    ; Case_Ignorable # Mn [112] COMBINING GRAVE ACCENT..COMBINING LATIN SMALL LETTER X",
text! "0374          ; Case_Ignorable # Lm       GREEK NUMERAL SIGN",
text! "0375          ; Case_Ignorable # Sk       GREEK LOWER NUMERAL SIGN",
text! "037A          ; Case_Ignorable # Lm       GREEK YPOGEGRAMMENI",
text! "0384..0385    ; Case_Ignorable # Sk   [2] GREEK TONOS..GREEK DIALYTIKA TONOS",
text! "0387          ; Case_Ignorable # Po       GREEK ANO TELEIA",
text! "0483..0487    ; Case_Ignorable # Mn   [5] COMBINING CYRILLIC TITLO..COMBINING CYRILLIC POKRYTIE",
text! "0488..0489    ; Case_Ignorable # Me   [2] COMBINING CYRILLIC HUNDRED THOUSANDS SIGN..COMBINING CYRILLIC MILLIONS SIGN",
text! "0559          ; Case_Ignorable # Lm       ARMENIAN MODIFIER LETTER LEFT HALF RING",
text! "055F          ; Case_Ignorable # Po       ARMENIAN ABBREVIATION MARK",
text! "0591..05BD    ; Case_Ignorable # Mn  [45] HEBREW ACCENT ETNAHTA..HEBREW POINT METEG",
text! "05BF          ; Case_Ignorable # Mn       HEBREW POINT RAFE",
text! "05C1..05C2    ; Case_Ignorable # Mn   [2] HEBREW POINT SHIN DOT..HEBREW POINT SIN DOT",
text! "05C4..05C5    ; Case_Ignorable # Mn   [2] HEBREW MARK UPPER DOT..HEBREW MARK LOWER DOT",
text! "05C7          ; Case_Ignorable # Mn       HEBREW POINT QAMATS QATAN",
text! "05F4          ; Case_Ignorable # Po       HEBREW PUNCTUATION GERSHAYIM",
text! "0600..0605    ; Case_Ignorable # Cf   [6] ARABIC NUMBER SIGN..ARABIC NUMBER MARK ABOVE",
text! "0610..061A    ; Case_Ignorable # Mn  [11] ARABIC SIGN SALLALLAHOU ALAYHE WASSALLAM..ARABIC SMALL KASRA",
text! "061C          ; Case_Ignorable # Cf       ARABIC LETTER MARK",
text! "0640          ; Case_Ignorable # Lm       ARABIC TATWEEL",
text! "064B..065F    ; Case_Ignorable # Mn  [21] ARABIC FATHATAN..ARABIC WAVY HAMZA BELOW"]

/-- lines 3073-3136 -/
def derivedCore48 : List Nat := [
text! "0670          ; Case_Ignorable # Mn       ARABIC LETTER SUPERSCRIPT ALEF",
text! "06D6..06DC    ; Case_Ignorable # Mn   [7] ARABIC SMALL HIGH LIGATURE SAD WITH LAM WITH ALEF MAKSURA..ARABIC SMALL HIGH SEEN",
text! "06DD          ; Case_Ignorable # Cf       ARABIC END OF AYAH",
text! "06DF..06E4    ; Case_Ignorable # Mn   [6] ARABIC SMALL HIGH ROUNDED ZERO..ARABIC SMALL HIGH MADDA",
text! "06E5..06E6    ; Case_Ignorable # Lm   [2] ARABIC SMALL WAW..ARABIC SMALL YEH",
text! "06E7..06E8    ; Case_Ignorable # Mn   [2] ARABIC SMALL HIGH YEH..ARABIC SMALL HIGH NOON",
text! "06EA..06ED    ; Case_Ignorable # Mn   [4] ARABIC EMPTY CENTRE LOW STOP..ARABIC SMALL LOW MEEM",
text! "070F          ; Case_Ignorable # Cf       SYRIAC ABBREVIATION MARK",
text! "0711          ; Case_Ignorable # Mn       SYRIAC LETTER SUPERSCRIPT ALAPH",
text! "0730..074A    ; Case_Ignorable # Mn  [27] SYRIAC PTHAHA ABOVE..SYRIAC BARREKH",
text! "07A6..07B0    ; Case_Ignorable # Mn  [11] THAANA ABAFILI..THAANA SUKUN",
text! "07EB..07F3    ; Case_Ignorable # Mn   [9] NKO COMBINING SHORT HIGH TONE..NKO COMBINING DOUBLE DOT ABOVE",
text! "07F4..07F5    ; Case_Ignorable # Lm   [2] NKO HIGH TONE APOSTROPHE..NKO LOW TONE APOSTROPHE",
text! "07FA          ; Case_Ignorable # Lm       NKO LAJANYALAN",
text! "07FD          ; Case_Ignorable # Mn       NKO DANTAYALAN",
text! "0816..0819    ; Case_Ignorable # Mn   [4] SAMARITAN MARK IN..SAMARITAN MARK DAGESH",
text! "081A          ; Case_Ignorable # Lm       SAMARITAN MODIFIER LETTER EPENTHETIC YUT",
text! "081B..0823    ; Case_Ignorable # Mn   [9] SAMARITAN MARK EPENTHETIC YUT..SAMARITAN VOWEL SIGN A",
text! "0824          ; Case_Ignorable # Lm       SAMARITAN MODIFIER LETTER SHORT A",
text! "0825..0827    ; Case_Ignorable # Mn   [3] SAMARITAN VOWEL SIGN SHORT A..SAMARITAN VOWEL SIGN U",
text! "0828          ; Case_Ignorable # Lm       SAMARITAN MODIFIER LETTER I",
text! "0829..082D    ; Case_Ignorable # Mn   [5] SAMARITAN VOWEL SIGN LONG I..SAMARITAN MARK NEQUDAA",
text! "0859..085B    ; Case_Ignorable # Mn   [3] MANDAIC AFFRICATION MARK..MANDAIC GEMINATION MARK",
text! "0888          ; Case_Ignorable # Sk       ARABIC RAISED ROUND DOT",
text! "0890..0891    ; Case_Ignorable # Cf   [2] ARABIC POUND MARK ABOVE..ARABIC PIASTRE MARK ABOVE",
text! "0897..089F    ; Case_Ignorable # Mn   [9] ARABIC PEPET..ARABIC HALF MADDA OVER MADDA",
text! "08C9          ; Case_Ignorable # Lm       ARABIC SMALL FARSI YEH",
text! "08CA..08E1    ; Case_Ignorable # Mn  [24] ARABIC SMALL HIGH FARSI YEH..ARABIC SMALL HIGH SIGN SAFHA",
text! "08E2          ; Case_Ignorable # Cf       ARABIC DISPUTED END OF AYAH",
text! "08E3..0902    ; Case_Ignorable # Mn  [32] ARABIC TURNED DAMMA BELOW..DEVANAGARI SIGN ANUSVARA",
text! "093A          ; Case_Ignorable # Mn       DEVANAGARI VOWEL SIGN OE",
text! "093C          ; Case_Ignorable # Mn       DEVANAGARI SIGN NUKTA",
text! "0941..0948    ; Case_Ignorable # Mn   [8] DEVANAGARI VOWEL SIGN U..DEVANAGARI VOWEL SIGN AI",
text! "094D          ; Case_Ignorable # Mn       DEVANAGARI SIGN VIRAMA",
text! "0951..0957    ; Case_Ignorable # Mn   [7] DEVANAGARI STRESS SIGN UDATTA..DEVANAGARI VOWEL SIGN UUE",
text! "0962..0963    ; Case_Ignorable # Mn   [2] DEVANAGARI VOWEL SIGN VOCALIC L..DEVANAGARI VOWEL SIGN VOCALIC LL",
text! "0971          ; Case_Ignorable # Lm       DEVANAGARI SIGN HIGH SPACING DOT",
text! "0981          ; Case_Ignorable # Mn       BENGALI SIGN CANDRABINDU",
text! "09BC          ; Case_Ignorable # Mn       BENGALI SIGN NUKTA",
text! "09C1..09C4    ; Case_Ignorable # Mn   [4] BENGALI VOWEL SIGN U..BENGALI VOWEL SIGN VOCALIC RR",
text! "09CD          ; Case_Ignorable # Mn       BENGALI SIGN VIRAMA",
text! "09E2..09E3    ; Case_Ignorable # Mn   [2] BENGALI VOWEL SIGN VOCALIC L..BENGALI VOWEL SIGN VOCALIC LL",
text! "09FE          ; Case_Ignorable # Mn       BENGALI SANDHI MARK",
text! "0A01..0A02    ; Case_Ignorable # Mn   [2] GURMUKHI SIGN ADAK BINDI..GURMUKHI SIGN BINDI",
text! "0A3C          ; Case_Ignorable # Mn       GURMUKHI SIGN NUKTA",
text! "0A41..0A42    ; Case_Ignorable # Mn   [2] GURMUKHI VOWEL SIGN U..GURMUKHI VOWEL SIGN UU",
text! "0A47..0A48    ; Case_Ignorable # Mn   [2] GURMUKHI VOWEL SIGN EE..GURMUKHI VOWEL SIGN AI",
text! "0A4B..0A4D    ; Case_Ignorable # Mn   [3] GURMUKHI VOWEL SIGN OO..GURMUKHI SIGN VIRAMA",
text! "0A51          ; Case_Ignorable # Mn       GURMUKHI SIGN UDAAT",
text! "0A70..0A71    ; Case_Ignorable # Mn   [2] GURMUKHI TIPPI..GURMUKHI ADDAK",
text! "0A75          ; Case_Ignorable # Mn       GURMUKHI SIGN YAKASH",
text! "0A81..0A82    ; Case_Ignorable # Mn   [2] GUJARATI SIGN CANDRABINDU..GUJARATI SIGN ANUSVARA",
text! "0ABC          ; Case_Ignorable # Mn       GUJARATI SIGN NUKTA",
text! "0AC1..0AC5    ; Case_Ignorable # Mn   [5] GUJARATI VOWEL SIGN U..GUJARATI VOWEL SIGN CANDRA E",
text! "0AC7..0AC8    ; Case_Ignorable # Mn   [2] GUJARATI VOWEL SIGN E..GUJARATI VOWEL SIGN AI",
text! "0ACD          ; Case_Ignorable # Mn       GUJARATI SIGN VIRAMA",
text! "0AE2..0AE3    ; Case_Ignorable # Mn   [2] GUJARATI VOWEL SIGN VOCALIC L..GUJARATI VOWEL SIGN VOCALIC LL",
text! "0AFA..0AFF    ; Case_Ignorable # Mn   [6] GUJARATI SIGN SUKUN..GUJARATI SIGN TWO-CIRCLE NUKTA ABOVE",
text! "0B01          ; Case_Ignorable # Mn       ORIYA SIGN CANDRABINDU",
text! "0B3C          ; Case_Ignorable # Mn       ORIYA SIGN NUKTA",
text! "0B3F          ; Case_Ignorable # Mn       ORIYA VOWEL SIGN I",
text! "0B41..0B44    ; Case_Ignorable # Mn   [4] ORIYA VOWEL SIGN U..ORIYA VOWEL SIGN VOCALIC RR",
text! "0B4D          ; Case_Ignorable # Mn       ORIYA SIGN VIRAMA",
text! "0B55..0B56    ; Case_Ignorable # Mn   [2] ORIYA SIGN OVERLINE..ORIYA AI LENGTH MARK"]

/-- lines 3137-3200 -/
def derivedCore49 : List Nat := [
text! "0B62..0B63    ; Case_Ignorable # Mn   [2] ORIYA VOWEL SIGN VOCALIC L..ORIYA VOWEL SIGN VOCALIC LL",
text! "0B82          ; Case_Ignorable # Mn       TAMIL SIGN ANUSVARA",
text! "0BC0          ; Case_Ignorable # Mn       TAMIL VOWEL SIGN II",
text! "0BCD          ; Case_Ignorable # Mn       TAMIL SIGN VIRAMA",
text! "0C00          ; Case_Ignorable # Mn       TELUGU SIGN COMBINING CANDRABINDU ABOVE",
text! "0C04          ; Case_Ignorable # Mn       TELUGU SIGN COMBINING ANUSVARA ABOVE",
text! "0C3C          ; Case_Ignorable # Mn       TELUGU SIGN NUKTA",
text! "0C3E..0C40    ; Case_Ignorable # Mn   [3] TELUGU VOWEL SIGN AA..TELUGU VOWEL SIGN II",
text! "0C46..0C48    ; Case_Ignorable # Mn   [3] TELUGU VOWEL SIGN E..TELUGU VOWEL SIGN AI",
text! "0C4A..0C4D    ; Case_Ignorable # Mn   [4] TELUGU VOWEL SIGN O..TELUGU SIGN VIRAMA",
text! "0C55..0C56    ; Case_Ignorable # Mn   [2] TELUGU LENGTH MARK..TELUGU AI LENGTH MARK",
text! "0C62..0C63    ; Case_Ignorable # Mn   [2] TELUGU VOWEL SIGN VOCALIC L..TELUGU VOWEL SIGN VOCALIC LL",
text! "0C81          ; Case_Ignorable # Mn       KANNADA SIGN CANDRABINDU",
text! "0CBC          ; Case_Ignorable # Mn       KANNADA SIGN NUKTA",
text! "0CBF          ; Case_Ignorable # Mn       KANNADA VOWEL SIGN I",
text! "0CC6          ; Case_Ignorable # Mn       KANNADA VOWEL SIGN E",
text! "0CCC..0CCD    ; Case_Ignorable # Mn   [2] KANNADA VOWEL SIGN AU..KANNADA SIGN VIRAMA",
text! "0CE2..0CE3    ; Case_Ignorable # Mn   [2] KANNADA VOWEL SIGN VOCALIC L..KANNADA VOWEL SIGN VOCALIC LL",
text! "0D00..0D01    ; Case_Ignorable # Mn   [2] MALAYALAM SIGN COMBINING ANUSVARA ABOVE..MALAYALAM SIGN CANDRABINDU",
text! "0D3B..0D3C    ; Case_Ignorable # Mn   [2] MALAYALAM SIGN VERTICAL BAR VIRAMA..MALAYALAM SIGN CIRCULAR VIRAMA",
text! "0D41..0D44    ; Case_Ignorable # Mn   [4] MALAYALAM VOWEL SIGN U..MALAYALAM VOWEL SIGN VOCALIC RR",
text! "0D4D          ; Case_Ignorable # Mn       MALAYALAM SIGN VIRAMA",
text! "0D62..0D63    ; Case_Ignorable # Mn   [2] MALAYALAM VOWEL SIGN VOCALIC L..MALAYALAM VOWEL SIGN VOCALIC LL",
text! "0D81          ; Case_Ignorable # Mn       SINHALA SIGN CANDRABINDU",
text! "0DCA          ; Case_Ignorable # Mn       SINHALA SIGN AL-LAKUNA",
text! "0DD2..0DD4    ; Case_Ignorable # Mn   [3] SINHALA VOWEL SIGN KETTI IS-PILLA..SINHALA VOWEL SIGN KETTI PAA-PILLA",
text! "0DD6          ; Case_Ignorable # Mn       SINHALA VOWEL SIGN DIGA PAA-PILLA",
text! "0E31          ; Case_Ignorable # Mn       THAI CHARACTER MAI HAN-AKAT",
text! "0E34..0E3A    ; Case_Ignorable # Mn   [7] THAI CHARACTER SARA I..THAI CHARACTER PHINTHU",
text! "0E46          ; Case_Ignorable # Lm       THAI CHARACTER MAIYAMOK",
text! "0E47..0E4E    ; Case_Ignorable # Mn   [8] THAI CHARACTER MAITAIKHU..THAI CHARACTER YAMAKKAN",
text! "0EB1          ; Case_Ignorable # Mn       LAO VOWEL SIGN MAI KAN",
text! "0EB4..0EBC    ; Case_Ignorable # Mn   [9] LAO VOWEL SIGN I..LAO SEMIVOWEL SIGN LO",
text! "0EC6          ; Case_Ignorable # Lm       LAO KO LA",
text! "0EC8..0ECE    ; Case_Ignorable # Mn   [7] LAO TONE MAI EK..LAO YAMAKKAN",
text! "0F18..0F19    ; Case_Ignorable # Mn   [2] TIBETAN ASTROLOGICAL SIGN -KHYUD PA..TIBETAN ASTROLOGICAL SIGN SDONG TSHUGS",
text! "0F35          ; Case_Ignorable # Mn       TIBETAN MARK NGAS BZUNG NYI ZLA",
text! "0F37          ; Case_Ignorable # Mn       TIBETAN MARK NGAS BZUNG SGOR RTAGS",
text! "0F39          ; Case_Ignorable # Mn       TIBETAN MARK TSA -PHRU",
text! "0F71..0F7E    ; Case_Ignorable # Mn  [14] TIBETAN VOWEL SIGN AA..TIBETAN SIGN RJES SU NGA RO",
text! "0F80..0F84    ; Case_Ignorable # Mn   [5] TIBETAN VOWEL SIGN REVERSED I..TIBETAN MARK HALANTA",
text! "0F86..0F87    ; Case_Ignorable # Mn   [2] TIBETAN SIGN LCI RTAGS..TIBETAN SIGN YANG RTAGS",
text! "0F8D..0F97    ; Case_Ignorable # Mn  [11] TIBETAN SUBJOINED SIGN LCE TSA CAN..TIBETAN SUBJOINED LETTER JA",
text! "0F99..0FBC    ; Case_Ignorable # Mn  [36] TIBETAN SUBJOINED LETTER NYA..TIBETAN SUBJOINED LETTER FIXED-FORM RA",
text! "0FC6          ; Case_Ignorable # Mn       TIBETAN SYMBOL PADMA GDAN",
text! "102D..1030    ; Case_Ignorable # Mn   [4] MYANMAR VOWEL SIGN I..MYANMAR VOWEL SIGN UU",
text! "1032..1037    ; Case_Ignorable # Mn   [6] MYANMAR VOWEL SIGN AI..MYANMAR SIGN DOT BELOW",
text! "1039..103A    ; Case_Ignorable # Mn   [2] MYANMAR SIGN VIRAMA..MYANMAR SIGN ASAT",
text! "103D..103E    ; Case_Ignorable # Mn   [2] MYANMAR CONSONANT SIGN MEDIAL WA..MYANMAR CONSONANT SIGN MEDIAL HA",
text! "1058..1059    ; Case_Ignorable # Mn   [2] MYANMAR VOWEL SIGN VOCALIC L..MYANMAR VOWEL SIGN VOCALIC LL",
text! "105E..1060    ; Case_Ignorable # Mn   [3] MYANMAR CONSONANT SIGN MON MEDIAL NA..MYANMAR CONSONANT SIGN MON MEDIAL LA",
text! "1071..1074    ; Case_Ignorable # Mn   [4] MYANMAR VOWEL SIGN GEBA KAREN I..MYANMAR VOWEL SIGN KAYAH EE",
text! "1082          ; Case_Ignorable # Mn       MYANMAR CONSONANT SIGN SHAN MEDIAL WA",
text! "1085..1086    ; Case_Ignorable # Mn   [2] MYANMAR VOWEL SIGN SHAN E ABOVE..MYANMAR VOWEL SIGN SHAN FINAL Y",
text! "108D          ; Case_Ignorable # Mn       MYANMAR SIGN SHAN COUNCIL EMPHATIC TONE",
text! "109D          ; Case_Ignorable # Mn       MYANMAR VOWEL SIGN AITON AI",
text! "10FC          ; Case_Ignorable # Lm       MODIFIER LETTER GEORGIAN NAR",
text! "135D..135F    ; Case_Ignorable # Mn   [3] ETHIOPIC COMBINING GEMINATION AND VOWEL LENGTH MARK..ETHIOPIC COMBINING GEMINATION MARK",
text! "1712..1714    ; Case_Ignorable # Mn   [3] TAGALOG VOWEL SIGN I..TAGALOG SIGN VIRAMA",
text! "1732..1733    ; Case_Ignorable # Mn   [2] HANUNOO VOWEL SIGN I..HANUNOO VOWEL SIGN U",
text! "1752..1753    ; Case_Ignorable # Mn   [2] BUHID VOWEL SIGN I..BUHID VOWEL SIGN U",
text! "1772..1773    ; Case_Ignorable # Mn   [2] TAGBANWA VOWEL SIGN I..TAGBANWA VOWEL SIGN U",
text! "17B4..17B5    ; Case_Ignorable # Mn   [2] KHMER VOWEL INHERENT AQ..KHMER VOWEL INHERENT AA",
text! "17B7..17BD    ; Case_Ignorable # Mn   [7] KHMER VOWEL SIGN I..KHMER VOWEL SIGN UA"]

/-- lines 3201-3264 -/
def derivedCore50 : List Nat := [
text! "17C6          ; Case_Ignorable # Mn       KHMER SIGN NIKAHIT",
text! "17C9..17D3    ; Case_Ignorable # Mn  [11] KHMER SIGN MUUSIKATOAN..KHMER SIGN BATHAMASAT",
text! "17D7          ; Case_Ignorable # Lm       KHMER SIGN LEK TOO",
text! "17DD          ; Case_Ignorable # Mn       KHMER SIGN ATTHACAN",
text! "180B..180D    ; Case_Ignorable # Mn   [3] MONGOLIAN FREE VARIATION SELECTOR ONE..MONGOLIAN FREE VARIATION SELECTOR THREE",
text! "180E          ; Case_Ignorable # Cf       MONGOLIAN VOWEL SEPARATOR",
text! "180F          ; Case_Ignorable # Mn       MONGOLIAN FREE VARIATION SELECTOR FOUR",
text! "1843          ; Case_Ignorable # Lm       MONGOLIAN LETTER TODO LONG VOWEL SIGN",
text! "1885..1886    ; Case_Ignorable # Mn   [2] MONGOLIAN LETTER ALI GALI BALUDA..MONGOLIAN LETTER ALI GALI THREE BALUDA",
text! "18A9          ; Case_Ignorable # Mn       MONGOLIAN LETTER ALI GALI DAGALGA",
text! "1920..1922    ; Case_Ignorable # Mn   [3] LIMBU VOWEL SIGN A..LIMBU VOWEL SIGN U",
text! "1927..1928    ; Case_Ignorable # Mn   [2] LIMBU VOWEL SIGN E..LIMBU VOWEL SIGN O",
text! "1932          ; Case_Ignorable # Mn       LIMBU SMALL LETTER ANUSVARA",
text! "1939..193B    ; Case_Ignorable # Mn   [3] LIMBU SIGN MUKPHRENG..LIMBU SIGN SA-I",
text! "1A17..1A18    ; Case_Ignorable # Mn   [2] BUGINESE VOWEL SIGN I..BUGINESE VOWEL SIGN U",
text! "1A1B          ; Case_Ignorable # Mn       BUGINESE VOWEL SIGN AE",
text! "1A56          ; Case_Ignorable # Mn       TAI THAM CONSONANT SIGN MEDIAL LA",
text! "1A58..1A5E    ; Case_Ignorable # Mn   [7] TAI THAM SIGN MAI KANG LAI..TAI THAM CONSONANT SIGN SA",
text! "1A60          ; Case_Ignorable # Mn       TAI THAM SIGN SAKOT",
text! "1A62          ; Case_Ignorable # Mn       TAI THAM VOWEL SIGN MAI SAT",
text! "1A65..1A6C    ; Case_Ignorable # Mn   [8] TAI THAM VOWEL SIGN I..TAI THAM VOWEL SIGN OA BELOW",
text! "1A73..1A7C    ; Case_Ignorable # Mn  [10] TAI THAM VOWEL SIGN OA ABOVE..TAI THAM SIGN KHUEN-LUE KARAN",
text! "1A7F          ; Case_Ignorable # Mn       TAI THAM COMBINING CRYPTOGRAMMIC DOT",
text! "1AA7          ; Case_Ignorable # Lm       TAI THAM SIGN MAI YAMOK",
text! "1AB0..1ABD    ; Case_Ignorable # Mn  [14] COMBINING DOUBLED CIRCUMFLEX ACCENT..COMBINING PARENTHESES BELOW",
text! "1ABE          ; Case_Ignorable # Me       COMBINING PARENTHESES OVERLAY",
text! "1ABF..1ADD    ; Case_Ignorable # Mn  [31] COMBINING LATIN SMALL LETTER W BELOW..COMBINING DOT-AND-RING BELOW",
text! "1AE0..1AEB    ; Case_Ignorable # Mn  [12] COMBINING LEFT TACK ABOVE..COMBINING DOUBLE RIGHTWARDS ARROW ABOVE",
text! "1B00..1B03    ; Case_Ignorable # Mn   [4] BALINESE SIGN ULU RICEM..BALINESE SIGN SURANG",
text! "1B34          ; Case_Ignorable # Mn       BALINESE SIGN REREKAN",
text! "1B36..1B3A    ; Case_Ignorable # Mn   [5] BALINESE VOWEL SIGN ULU..BALINESE VOWEL SIGN RA REPA",
text! "1B3C          ; Case_Ignorable # Mn       BALINESE VOWEL SIGN LA LENGA",
text! "1B42          ; Case_Ignorable # Mn       BALINESE VOWEL SIGN PEPET",
text! "1B6B..1B73    ; Case_Ignorable # Mn   [9] BALINESE MUSICAL SYMBOL COMBINING TEGEH..BALINESE MUSICAL SYMBOL COMBINING GONG",
text! "1B80..1B81    ; Case_Ignorable # Mn   [2] SUNDANESE SIGN PANYECEK..SUNDANESE SIGN PANGLAYAR",
text! "1BA2..1BA5    ; Case_Ignorable # Mn   [4] SUNDANESE CONSONANT SIGN PANYAKRA..SUNDANESE VOWEL SIGN PANYUKU",
text! "1BA8..1BA9    ; Case_Ignorable # Mn   [2] SUNDANESE VOWEL SIGN PAMEPET..SUNDANESE VOWEL SIGN PANEULEUNG",
text! "1BAB..1BAD    ; Case_Ignorable # Mn   [3] SUNDANESE SIGN VIRAMA..SUNDANESE CONSONANT SIGN PASANGAN WA",
text! "1BE6          ; Case_Ignorable # Mn       BATAK SIGN TOMPI",
text! "1BE8..1BE9    ; Case_Ignorable # Mn   [2] BATAK VOWEL SIGN PAKPAK E..BATAK VOWEL SIGN EE",
text! "1BED          ; Case_Ignorable # Mn       BATAK VOWEL SIGN KARO O",
text! "1BEF..1BF1    ; Case_Ignorable # Mn   [3] BATAK VOWEL SIGN U FOR SIMALUNGUN SA..BATAK CONSONANT SIGN H",
text! "1C2C..1C33    ; Case_Ignorable # Mn   [8] LEPCHA VOWEL SIGN E..LEPCHA CONSONANT SIGN T",
text! "1C36..1C37    ; Case_Ignorable # Mn   [2] LEPCHA SIGN RAN..LEPCHA SIGN NUKTA",
text! "1C78..1C7D    ; Case_Ignorable # Lm   [6] OL CHIKI MU TTUDDAG..OL CHIKI AHAD",
text! "1CD0..1CD2    ; Case_Ignorable # Mn   [3] VEDIC TONE KARSHANA..VEDIC TONE PRENKHA",
text! "1CD4..1CE0    ; Case_Ignorable # Mn  [13] VEDIC SIGN YAJURVEDIC MIDLINE SVARITA..VEDIC TONE RIGVEDIC KASHMIRI INDEPENDENT SVARITA",
text! "1CE2..1CE8    ; Case_Ignorable # Mn   [7] VEDIC SIGN VISARGA SVARITA..VEDIC SIGN VISARGA ANUDATTA WITH TAIL",
text! "1CED          ; Case_Ignorable # Mn       VEDIC SIGN TIRYAK",
text! "1CF4          ; Case_Ignorable # Mn       VEDIC TONE CANDRA ABOVE",
text! "1CF8..1CF9    ; Case_Ignorable # Mn   [2] VEDIC TONE RING ABOVE..VEDIC TONE DOUBLE RING ABOVE",
text! "1D2C..1D6A    ; Case_Ignorable # Lm  [63] MODIFIER LETTER CAPITAL A..GREEK SUBSCRIPT SMALL LETTER CHI",
text! "1D78          ; Case_Ignorable # Lm       MODIFIER LETTER CYRILLIC EN",
text! "1D9B..1DBF    ; Case_Ignorable # Lm  [37] MODIFIER LETTER SMALL TURNED ALPHA..MODIFIER LETTER SMALL THETA",
text! "1DC0..1DFF    ; Case_Ignorable # Mn  [64] COMBINING DOTTED GRAVE ACCENT..COMBINING RIGHT ARROWHEAD AND DOWN ARROWHEAD BELOW",
text! "1FBD          ; Case_Ignorable # Sk       GREEK KORONIS",
text! "1FBF..1FC1    ; Case_Ignorable # Sk   [3] GREEK PSILI..GREEK DIALYTIKA AND PERISPOMENI",
text! "1FCD..1FCF    ; Case_Ignorable # Sk   [3] GREEK PSILI AND VARIA..GREEK PSILI AND PERISPOMENI",
text! "1FDD..1FDF    ; Case_Ignorable # Sk   [3] GREEK DASIA AND VARIA..GREEK DASIA AND PERISPOMENI",
text! "1FED..1FEF    ; Case_Ignorable # Sk   [3] GREEK DIALYTIKA AND VARIA..GREEK VARIA",
text! "1FFD..1FFE    ; Case_Ignorable # Sk   [2] GREEK OXIA..GREEK DASIA",
text! "200B..200F    ; Case_Ignorable # Cf   [5] ZERO WIDTH SPACE..RIGHT-TO-LEFT MARK",
text! "2018          ; Case_Ignorable # Pi       LEFT SINGLE QUOTATION MARK",
text! "2019          ; Case_Ignorable # Pf       RIGHT SINGLE QUOTATION MARK"]

/-- lines 3265-3328 -/
def derivedCore51 : List Nat := [
text! "2024          ; Case_Ignorable # Po       ONE DOT LEADER",
text! "2027          ; Case_Ignorable # Po       HYPHENATION POINT",
text! "202A..202E    ; Case_Ignorable # Cf   [5] LEFT-TO-RIGHT EMBEDDING..RIGHT-TO-LEFT OVERRIDE",
text! "2060..2064    ; Case_Ignorable # Cf   [5] WORD JOINER..INVISIBLE PLUS",
text! "2066..206F    ; Case_Ignorable # Cf  [10] LEFT-TO-RIGHT ISOLATE..NOMINAL DIGIT SHAPES",
text! "2071          ; Case_Ignorable # Lm       SUPERSCRIPT LATIN SMALL LETTER I",
text! "207F          ; Case_Ignorable # Lm       SUPERSCRIPT LATIN SMALL LETTER N",
text! "2090..209C    ; Case_Ignorable # Lm  [13] LATIN SUBSCRIPT SMALL LETTER A..LATIN SUBSCRIPT SMALL LETTER T",
text! "20D0..20DC    ; Case_Ignorable # Mn  [13] COMBINING LEFT HARPOON ABOVE..COMBINING FOUR DOTS ABOVE",
text! "20DD..20E0    ; Case_Ignorable # Me   [4] COMBINING ENCLOSING CIRCLE..COMBINING ENCLOSING CIRCLE BACKSLASH",
text! "20E1          ; Case_Ignorable # Mn       COMBINING LEFT RIGHT ARROW ABOVE",
text! "20E2..20E4    ; Case_Ignorable # Me   [3] COMBINING ENCLOSING SCREEN..COMBINING ENCLOSING UPWARD POINTING TRIANGLE",
text! "20E5..20F0    ; Case_Ignorable # Mn  [12] COMBINING REVERSE SOLIDUS OVERLAY..COMBINING ASTERISK ABOVE",
text! "2C7C..2C7D    ; Case_Ignorable # Lm   [2] LATIN SUBSCRIPT SMALL LETTER J..MODIFIER LETTER CAPITAL V",
text! "2CEF..2CF1    ; Case_Ignorable # Mn   [3] COPTIC COMBINING NI ABOVE..COPTIC COMBINING SPIRITUS LENIS",
text! "2D6F          ; Case_Ignorable # Lm       TIFINAGH MODIFIER LETTER LABIALIZATION MARK",
text! "2D7F          ; Case_Ignorable # Mn       TIFINAGH CONSONANT JOINER",
text! "2DE0..2DFF    ; Case_Ignorable # Mn  [32] COMBINING CYRILLIC LETTER BE..COMBINING CYRILLIC LETTER IOTIFIED BIG YUS",
text! "2E2F          ; Case_Ignorable # Lm       VERTICAL TILDE",
text! "3005          ; Case_Ignorable # Lm       IDEOGRAPHIC ITERATION MARK",
text! "302A..302D    ; Case_Ignorable # Mn   [4] IDEOGRAPHIC LEVEL TONE MARK..IDEOGRAPHIC ENTERING TONE MARK",
text! "3031..3035    ; Case_Ignorable # Lm   [5] VERTICAL KANA REPEAT MARK..VERTICAL KANA REPEAT MARK LOWER HALF",
text! "303B          ; Case_Ignorable # Lm       VERTICAL IDEOGRAPHIC ITERATION MARK",
text! "3099..309A    ; Case_Ignorable # Mn   [2] COMBINING KATAKANA-HIRAGANA VOICED SOUND MARK..COMBINING KATAKANA-HIRAGANA SEMI-VOICED SOUND MARK",
text! "309B..309C    ; Case_Ignorable # Sk   [2] KATAKANA-HIRAGANA VOICED SOUND MARK..KATAKANA-HIRAGANA SEMI-VOICED SOUND MARK",
text! "309D..309E    ; Case_Ignorable # Lm   [2] HIRAGANA ITERATION MARK..HIRAGANA VOICED ITERATION MARK",
text! "30FC..30FE    ; Case_Ignorable # Lm   [3] KATAKANA-HIRAGANA PROLONGED SOUND MARK..KATAKANA VOICED ITERATION MARK",
text! "A015          ; Case_Ignorable # Lm       YI SYLLABLE WU",
text! "A4F8..A4FD    ; Case_Ignorable # Lm   [6] LISU LETTER TONE MYA TI..LISU LETTER TONE MYA JEU",
text! "A60C          ; Case_Ignorable # Lm       VAI SYLLABLE LENGTHENER",
text! "A66F          ; Case_Ignorable # Mn       COMBINING CYRILLIC VZMET",
text! "A670..A672    ; Case_Ignorable # Me   [3] COMBINING CYRILLIC TEN MILLIONS SIGN..COMBINING CYRILLIC THOUSAND MILLIONS SIGN",
text! "A674..A67D    ; Case_Ignorable # Mn  [10] COMBINING CYRILLIC LETTER UKRAINIAN IE..COMBINING CYRILLIC PAYEROK",
text! "A67F          ; Case_Ignorable # Lm       CYRILLIC PAYEROK",
text! "A69C..A69D    ; Case_Ignorable # Lm   [2] MODIFIER LETTER CYRILLIC HARD SIGN..MODIFIER LETTER CYRILLIC SOFT SIGN",
text! "A69E..A69F    ; Case_Ignorable # Mn   [2] COMBINING CYRILLIC LETTER EF..COMBINING CYRILLIC LETTER IOTIFIED E",
text! "A6F0..A6F1    ; Case_Ignorable # Mn   [2] BAMUM COMBINING MARK KOQNDON..BAMUM COMBINING MARK TUKWENTIS",
text! "A700..A716    ; Case_Ignorable # Sk  [23] MODIFIER LETTER CHINESE TONE YIN PING..MODIFIER LETTER EXTRA-LOW LEFT-STEM TONE BAR",
text! "A717..A71F    ; Case_Ignorable # Lm   [9] MODIFIER LETTER DOT VERTICAL BAR..MODIFIER LETTER LOW INVERTED EXCLAMATION MARK",
text! "A720..A721    ; Case_Ignorable # Sk   [2] MODIFIER LETTER STRESS AND HIGH TONE..MODIFIER LETTER STRESS AND LOW TONE",
text! "A770          ; Case_Ignorable # Lm       MODIFIER LETTER US",
text! "A788          ; Case_Ignorable # Lm       MODIFIER LETTER LOW CIRCUMFLEX ACCENT",
text! "A789..A78A    ; Case_Ignorable # Sk   [2] MODIFIER LETTER COLON..MODIFIER LETTER SHORT EQUALS SIGN",
text! "A7F1..A7F4    ; Case_Ignorable # Lm   [4] MODIFIER LETTER CAPITAL S..MODIFIER LETTER CAPITAL Q",
text! "A7F8..A7F9    ; Case_Ignorable # Lm   [2] MODIFIER LETTER CAPITAL H WITH STROKE..MODIFIER LETTER SMALL LIGATURE OE",
text! "A802          ; Case_Ignorable # Mn       SYLOTI NAGRI SIGN DVISVARA",
text! "A806          ; Case_Ignorable # Mn       SYLOTI NAGRI SIGN HASANTA",
text! "A80B          ; Case_Ignorable # Mn       SYLOTI NAGRI SIGN ANUSVARA",
text! "A825..A826    ; Case_Ignorable # Mn   [2] SYLOTI NAGRI VOWEL SIGN U..SYLOTI NAGRI VOWEL SIGN E",
text! "A82C          ; Case_Ignorable # Mn       SYLOTI NAGRI SIGN ALTERNATE HASANTA",
text! "A8C4..A8C5    ; Case_Ignorable # Mn   [2] SAURASHTRA SIGN VIRAMA..SAURASHTRA SIGN CANDRABINDU",
text! "A8E0..A8F1    ; Case_Ignorable # Mn  [18] COMBINING DEVANAGARI DIGIT ZERO..COMBINING DEVANAGARI SIGN AVAGRAHA",
text! "A8FF          ; Case_Ignorable # Mn       DEVANAGARI VOWEL SIGN AY",
text! "A926..A92D    ; Case_Ignorable # Mn   [8] KAYAH LI VOWEL UE..KAYAH LI TONE CALYA PLOPHU",
text! "A947..A951    ; Case_Ignorable # Mn  [11] REJANG VOWEL SIGN I..REJANG CONSONANT SIGN R",
text! "A980..A982    ; Case_Ignorable # Mn   [3] JAVANESE SIGN PANYANGGA..JAVANESE SIGN LAYAR",
text! "A9B3          ; Case_Ignorable # Mn       JAVANESE SIGN CECAK TELU",
text! "A9B6..A9B9    ; Case_Ignorable # Mn   [4] JAVANESE VOWEL SIGN WULU..JAVANESE VOWEL SIGN SUKU MENDUT",
text! "A9BC..A9BD    ; Case_Ignorable # Mn   [2] JAVANESE VOWEL SIGN PEPET..JAVANESE CONSONANT SIGN KERET",
text! "A9CF          ; Case_Ignorable # Lm       JAVANESE PANGRANGKEP",
text! "A9E5          ; Case_Ignorable # Mn       MYANMAR SIGN SHAN SAW",
text! "A9E6          ; Case_Ignorable # Lm       MYANMAR MODIFIER LETTER SHAN REDUPLICATION",
text! "AA29..AA2E    ; Case_Ignorable # Mn   [6] CHAM VOWEL SIGN AA..CHAM VOWEL SIGN OE",
text! "AA31..AA32    ; Case_Ignorable # Mn   [2] CHAM VOWEL SIGN AU..CHAM VOWEL SIGN UE"]

/-- lines 3329-3392 -/
def derivedCore52 : List Nat := [
text! "AA35..AA36    ; Case_Ignorable # Mn   [2] CHAM CONSONANT SIGN LA..CHAM CONSONANT SIGN WA",
text! "AA43          ; Case_Ignorable # Mn       CHAM CONSONANT SIGN FINAL NG",
text! "AA4C          ; Case_Ignorable # Mn       CHAM CONSONANT SIGN FINAL M",
text! "AA70          ; Case_Ignorable # Lm       MYANMAR MODIFIER LETTER KHAMTI REDUPLICATION",
text! "AA7C          ; Case_Ignorable # Mn       MYANMAR SIGN TAI LAING TONE-2",
text! "AAB0          ; Case_Ignorable # Mn       TAI VIET MAI KANG",
text! "AAB2..AAB4    ; Case_Ignorable # Mn   [3] TAI VIET VOWEL I..TAI VIET VOWEL U",
text! "AAB7..AAB8    ; Case_Ignorable # Mn   [2] TAI VIET MAI KHIT..TAI VIET VOWEL IA",
text! "AABE..AABF    ; Case_Ignorable # Mn   [2] TAI VIET VOWEL AM..TAI VIET TONE MAI EK",
text! "AAC1          ; Case_Ignorable # Mn       TAI VIET TONE MAI THO",
text! "AADD          ; Case_Ignorable # Lm       TAI VIET SYMBOL SAM",
text! "AAEC..AAED    ; Case_Ignorable # Mn   [2] MEETEI MAYEK VOWEL SIGN UU..MEETEI MAYEK VOWEL SIGN AAI",
text! "AAF3..AAF4    ; Case_Ignorable # Lm   [2] MEETEI MAYEK SYLLABLE REPETITION MARK..MEETEI MAYEK WORD REPETITION MARK",
text! "AAF6          ; Case_Ignorable # Mn       MEETEI MAYEK VIRAMA",
text! "AB5B          ; Case_Ignorable # Sk       MODIFIER BREVE WITH INVERTED BREVE",
text! "AB5C..AB5F    ; Case_Ignorable # Lm   [4] MODIFIER LETTER SMALL HENG..MODIFIER LETTER SMALL U WITH LEFT HOOK",
text! "AB69          ; Case_Ignorable # Lm       MODIFIER LETTER SMALL TURNED W",
text! "AB6A..AB6B    ; Case_Ignorable # Sk   [2] MODIFIER LETTER LEFT TACK..MODIFIER LETTER RIGHT TACK",
text! "ABE5          ; Case_Ignorable # Mn       MEETEI MAYEK VOWEL SIGN ANAP",
text! "ABE8          ; Case_Ignorable # Mn       MEETEI MAYEK VOWEL SIGN UNAP",
text! "ABED          ; Case_Ignorable # Mn       MEETEI MAYEK APUN IYEK",
text! "FB1E          ; Case_Ignorable # Mn       HEBREW POINT JUDEO-SPANISH VARIKA",
text! "FBB2..FBC2    ; Case_Ignorable # Sk  [17] ARABIC SYMBOL DOT ABOVE..ARABIC SYMBOL WASLA ABOVE",
text! "FE00..FE0F    ; Case_Ignorable # Mn  [16] VARIATION SELECTOR-1..VARIATION SELECTOR-16",
text! "FE13          ; Case_Ignorable # Po       PRESENTATION FORM FOR VERTICAL COLON",
text! "FE20..FE2F    ; Case_Ignorable # Mn  [16] COMBINING LIGATURE LEFT HALF..COMBINING CYRILLIC TITLO RIGHT HALF",
text! "FE52          ; Case_Ignorable # Po       SMALL FULL STOP",
text! "FE55          ; Case_Ignorable # Po       SMALL COLON",
text! "FEFF          ; Case_Ignorable # Cf       ZERO WIDTH NO-BREAK SPACE",
text! "FF07          ; Case_Ignorable # Po       FULLWIDTH APOSTROPHE",
text! "FF0E          ; Case_Ignorable # Po       FULLWIDTH FULL STOP",
text! "FF1A          ; Case_Ignorable # Po       FULLWIDTH COLON",
text! "FF3E          ; Case_Ignorable # Sk       FULLWIDTH CIRCUMFLEX ACCENT",
text! "FF40          ; Case_Ignorable # Sk       FULLWIDTH GRAVE ACCENT",
text! "FF70          ; Case_Ignorable # Lm       HALFWIDTH KATAKANA-HIRAGANA PROLONGED SOUND MARK",
text! "FF9E..FF9F    ; Case_Ignorable # Lm   [2] HALFWIDTH KATAKANA VOICED SOUND MARK..HALFWIDTH KATAKANA SEMI-VOICED SOUND MARK",
text! "FFE3          ; Case_Ignorable # Sk       FULLWIDTH MACRON",
text! "FFF9..FFFB    ; Case_Ignorable # Cf   [3] INTERLINEAR ANNOTATION ANCHOR..INTERLINEAR ANNOTATION TERMINATOR",
text! "101FD         ; Case_Ignorable # Mn       PHAISTOS DISC SIGN COMBINING OBLIQUE STROKE",
text! "102E0         ; Case_Ignorable # Mn       COPTIC EPACT THOUSANDS MARK",
text! "10376..1037A  ; Case_Ignorable # Mn   [5] COMBINING OLD PERMIC LETTER AN..COMBINING OLD PERMIC LETTER SII",
text! "10780..10785  ; Case_Ignorable # Lm   [6] MODIFIER LETTER SMALL CAPITAL AA..MODIFIER LETTER SMALL B WITH HOOK",
text! "10787..107B0  ; Case_Ignorable # Lm  [42] MODIFIER LETTER SMALL DZ DIGRAPH..MODIFIER LETTER SMALL V WITH RIGHT HOOK",
text! "107B2..107BA  ; Case_Ignorable # Lm   [9] MODIFIER LETTER SMALL CAPITAL Y..MODIFIER LETTER SMALL S WITH CURL",
text! "10A01..10A03  ; Case_Ignorable # Mn   [3] KHAROSHTHI VOWEL SIGN I..KHAROSHTHI VOWEL SIGN VOCALIC R",
text! "10A05..10A06  ; Case_Ignorable # Mn   [2] KHAROSHTHI VOWEL SIGN E..KHAROSHTHI VOWEL SIGN O",
text! "10A0C..10A0F  ; Case_Ignorable # Mn   [4] KHAROSHTHI VOWEL LENGTH MARK..KHAROSHTHI SIGN VISARGA",
text! "10A38..10A3A  ; Case_Ignorable # Mn   [3] KHAROSHTHI SIGN BAR ABOVE..KHAROSHTHI SIGN DOT BELOW",
text! "10A3F         ; Case_Ignorable # Mn       KHAROSHTHI VIRAMA",
text! "10AE5..10AE6  ; Case_Ignorable # Mn   [2] MANICHAEAN ABBREVIATION MARK ABOVE..MANICHAEAN ABBREVIATION MARK BELOW",
text! "10D24..10D27  ; Case_Ignorable # Mn   [4] HANIFI ROHINGYA SIGN HARBAHAY..HANIFI ROHINGYA SIGN TASSI",
text! "10D4E         ; Case_Ignorable # Lm       GARAY VOWEL LENGTH MARK",
text! "10D69..10D6D  ; Case_Ignorable # Mn   [5] GARAY VOWEL SIGN E..GARAY CONSONANT NASALIZATION MARK",
text! "10D6F         ; Case_Ignorable # Lm       GARAY REDUPLICATION MARK",
text! "10EAB..10EAC  ; Case_Ignorable # Mn   [2] YEZIDI COMBINING HAMZA MARK..YEZIDI COMBINING MADDA MARK",
text! "10EC5         ; Case_Ignorable # Lm       ARABIC SMALL YEH BARREE WITH TWO DOTS BELOW",
text! "10EFA..10EFF  ; Case_Ignorable # Mn   [6] ARABIC DOUBLE VERTICAL BAR BELOW..ARABIC SMALL LOW WORD MADDA",
text! "10F46..10F50  ; Case_Ignorable # Mn  [11] SOGDIAN COMBINING DOT BELOW..SOGDIAN COMBINING STROKE BELOW",
text! "10F82..10F85  ; Case_Ignorable # Mn   [4] OLD UYGHUR COMBINING DOT ABOVE..OLD UYGHUR COMBINING TWO DOTS BELOW",
text! "11001         ; Case_Ignorable # Mn       BRAHMI SIGN ANUSVARA",
text! "11038..11046  ; Case_Ignorable # Mn  [15] BRAHMI VOWEL SIGN AA..BRAHMI VIRAMA",
text! "11070         ; Case_Ignorable # Mn       BRAHMI SIGN OLD TAMIL VIRAMA",
text! "11073..11074  ; Case_Ignorable # Mn   [2] BRAHMI VOWEL SIGN OLD TAMIL SHORT E..BRAHMI VOWEL SIGN OLD TAMIL SHORT O",
text! "1107F..11081  ; Case_Ignorable # Mn   [3] BRAHMI NUMBER JOINER..KAITHI SIGN ANUSVARA"]

/-- lines 3393-3456 -/
def derivedCore53 : List Nat := [
text! "110B3..110B6  ; Case_Ignorable # Mn   [4] KAITHI VOWEL SIGN U..KAITHI VOWEL SIGN AI",
text! "110B9..110BA  ; Case_Ignorable # Mn   [2] KAITHI SIGN VIRAMA..KAITHI SIGN NUKTA",
text! "110BD         ; Case_Ignorable # Cf       KAITHI NUMBER SIGN",
text! "110C2         ; Case_Ignorable # Mn       KAITHI VOWEL SIGN VOCALIC R",
text! "110CD         ; Case_Ignorable # Cf       KAITHI NUMBER SIGN ABOVE",
text! "11100..11102  ; Case_Ignorable # Mn   [3] CHAKMA SIGN CANDRABINDU..CHAKMA SIGN VISARGA",
text! "11127..1112B  ; Case_Ignorable # Mn   [5] CHAKMA VOWEL SIGN A..CHAKMA VOWEL SIGN UU",
text! "1112D..11134  ; Case_Ignorable # Mn   [8] CHAKMA VOWEL SIGN AI..CHAKMA MAAYYAA",
text! "11173         ; Case_Ignorable # Mn       MAHAJANI SIGN NUKTA",
text! "11180..11181  ; Case_Ignorable # Mn   [2] SHARADA SIGN CANDRABINDU..SHARADA SIGN ANUSVARA",
text! "111B6..111BE  ; Case_Ignorable # Mn   [9] SHARADA VOWEL SIGN U..SHARADA VOWEL SIGN O",
text! "111C9..111CC  ; Case_Ignorable # Mn   [4] SHARADA SANDHI MARK..SHARADA EXTRA SHORT VOWEL MARK",
text! "111CF         ; Case_Ignorable # Mn       SHARADA SIGN INVERTED CANDRABINDU",
text! "1122F..11231  ; Case_Ignorable # Mn   [3] KHOJKI VOWEL SIGN U..KHOJKI VOWEL SIGN AI",
text! "11234         ; Case_Ignorable # Mn       KHOJKI SIGN ANUSVARA",
text! "11236..11237  ; Case_Ignorable # Mn   [2] KHOJKI SIGN NUKTA..KHOJKI SIGN SHADDA",
text! "1123E         ; Case_Ignorable # Mn       KHOJKI SIGN SUKUN",
text! "11241         ; Case_Ignorable # Mn       KHOJKI VOWEL SIGN VOCALIC R",
text! "112DF         ; Case_Ignorable # Mn       KHUDAWADI SIGN ANUSVARA",
text! "112E3..112EA  ; Case_Ignorable # Mn   [8] KHUDAWADI VOWEL SIGN U..KHUDAWADI SIGN VIRAMA",
text! "11300..11301  ; Case_Ignorable # Mn   [2] GRANTHA SIGN COMBINING ANUSVARA ABOVE..GRANTHA SIGN CANDRABINDU",
text! "1133B..1133C  ; Case_Ignorable # Mn   [2] COMBINING BINDU BELOW..GRANTHA SIGN NUKTA",
text! "11340         ; Case_Ignorable # Mn       GRANTHA VOWEL SIGN II",
text! "11366..1136C  ; Case_Ignorable # Mn   [7] COMBINING GRANTHA DIGIT ZERO..COMBINING GRANTHA DIGIT SIX",
text! "11370..11374  ; Case_Ignorable # Mn   [5] COMBINING GRANTHA LETTER A..COMBINING GRANTHA LETTER PA",
text! "113BB..113C0  ; Case_Ignorable # Mn   [6] TULU-TIGALARI VOWEL SIGN U..TULU-TIGALARI VOWEL SIGN VOCALIC LL",
text! "113CE         ; Case_Ignorable # Mn       TULU-TIGALARI SIGN VIRAMA",
text! "113D0         ; Case_Ignorable # Mn       TULU-TIGALARI CONJOINER",
text! "113D2         ; Case_Ignorable # Mn       TULU-TIGALARI GEMINATION MARK",
text! "113E1..113E2  ; Case_Ignorable # Mn   [2] TULU-TIGALARI VEDIC TONE SVARITA..TULU-TIGALARI VEDIC TONE ANUDATTA",
text! "11438..1143F  ; Case_Ignorable # Mn   [8] NEWA VOWEL SIGN U..NEWA VOWEL SIGN AI",
text! "11442..11444  ; Case_Ignorable # Mn   [3] NEWA SIGN VIRAMA..NEWA SIGN ANUSVARA",
text! "11446         ; Case_Ignorable # Mn       NEWA SIGN NUKTA",
text! "1145E         ; Case_Ignorable # Mn       NEWA SANDHI MARK",
text! "114B3..114B8  ; Case_Ignorable # Mn   [6] TIRHUTA VOWEL SIGN U..TIRHUTA VOWEL SIGN VOCALIC LL",
text! "114BA         ; Case_Ignorable # Mn       TIRHUTA VOWEL SIGN SHORT E",
text! "114BF..114C0  ; Case_Ignorable # Mn   [2] TIRHUTA SIGN CANDRABINDU..TIRHUTA SIGN ANUSVARA",
text! "114C2..114C3  ; Case_Ignorable # Mn   [2] TIRHUTA SIGN VIRAMA..TIRHUTA SIGN NUKTA",
text! "115B2..115B5  ; Case_Ignorable # Mn   [4] SIDDHAM VOWEL SIGN U..SIDDHAM VOWEL SIGN VOCALIC RR",
text! "115BC..115BD  ; Case_Ignorable # Mn   [2] SIDDHAM SIGN CANDRABINDU..SIDDHAM SIGN ANUSVARA",
text! "115BF..115C0  ; Case_Ignorable # Mn   [2] SIDDHAM SIGN VIRAMA..SIDDHAM SIGN NUKTA",
text! "115DC..115DD  ; Case_Ignorable # Mn   [2] SIDDHAM VOWEL SIGN ALTERNATE U..SIDDHAM VOWEL SIGN ALTERNATE UU",
text! "11633..1163A  ; Case_Ignorable # Mn   [8] MODI VOWEL SIGN U..MODI VOWEL SIGN AI",
text! "1163D         ; Case_Ignorable # Mn       MODI SIGN ANUSVARA",
text! "1163F..11640  ; Case_Ignorable # Mn   [2] MODI SIGN VIRAMA..MODI SIGN ARDHACANDRA",
text! "116AB         ; Case_Ignorable # Mn       TAKRI SIGN ANUSVARA",
text! "116AD         ; Case_Ignorable # Mn       TAKRI VOWEL SIGN AA",
text! "116B0..116B5  ; Case_Ignorable # Mn   [6] TAKRI VOWEL SIGN U..TAKRI VOWEL SIGN AU",
text! "116B7         ; Case_Ignorable # Mn       TAKRI SIGN NUKTA",
text! "1171D         ; Case_Ignorable # Mn       AHOM CONSONANT SIGN MEDIAL LA",
text! "1171F         ; Case_Ignorable # Mn       AHOM CONSONANT SIGN MEDIAL LIGATING RA",
text! "11722..11725  ; Case_Ignorable # Mn   [4] AHOM VOWEL SIGN I..AHOM VOWEL SIGN UU",
text! "11727..1172B  ; Case_Ignorable # Mn   [5] AHOM VOWEL SIGN AW..AHOM SIGN KILLER",
text! "1182F..11837  ; Case_Ignorable # Mn   [9] DOGRA VOWEL SIGN U..DOGRA SIGN ANUSVARA",
text! "11839..1183A  ; Case_Ignorable # Mn   [2] DOGRA SIGN VIRAMA..DOGRA SIGN NUKTA",
text! "1193B..1193C  ; Case_Ignorable # Mn   [2] DIVES AKURU SIGN ANUSVARA..DIVES AKURU SIGN CANDRABINDU",
text! "1193E         ; Case_Ignorable # Mn       DIVES AKURU VIRAMA",
text! "11943         ; Case_Ignorable # Mn       DIVES AKURU SIGN NUKTA",
text! "119D4..119D7  ; Case_Ignorable # Mn   [4] NANDINAGARI VOWEL SIGN U..NANDINAGARI VOWEL SIGN VOCALIC RR",
text! "119DA..119DB  ; Case_Ignorable # Mn   [2] NANDINAGARI VOWEL SIGN E..NANDINAGARI VOWEL SIGN AI",
text! "119E0         ; Case_Ignorable # Mn       NANDINAGARI SIGN VIRAMA",
text! "11A01..11A0A  ; Case_Ignorable # Mn  [10] ZANABAZAR SQUARE VOWEL SIGN I..ZANABAZAR SQUARE VOWEL LENGTH MARK",
text! "11A33..11A38  ; Case_Ignorable # Mn   [6] ZANABAZAR SQUARE FINAL CONSONANT MARK..ZANABAZAR SQUARE SIGN ANUSVARA",
text! "11A3B..11A3E  ; Case_Ignorable # Mn   [4] ZANABAZAR SQUARE CLUSTER-FINAL LETTER YA..ZANABAZAR SQUARE CLUSTER-FINAL LETTER VA"]

/-- lines 3457-3520 -/
def derivedCore54 : List Nat := [
text! "11A47         ; Case_Ignorable # Mn       ZANABAZAR SQUARE SUBJOINER",
text! "11A51..11A56  ; Case_Ignorable # Mn   [6] SOYOMBO VOWEL SIGN I..SOYOMBO VOWEL SIGN OE",
text! "11A59..11A5B  ; Case_Ignorable # Mn   [3] SOYOMBO VOWEL SIGN VOCALIC R..SOYOMBO VOWEL LENGTH MARK",
text! "11A8A..11A96  ; Case_Ignorable # Mn  [13] SOYOMBO FINAL CONSONANT SIGN G..SOYOMBO SIGN ANUSVARA",
text! "11A98..11A99  ; Case_Ignorable # Mn   [2] SOYOMBO GEMINATION MARK..SOYOMBO SUBJOINER",
text! "11B60         ; Case_Ignorable # Mn       SHARADA VOWEL SIGN OE",
text! "11B62..11B64  ; Case_Ignorable # Mn   [3] SHARADA VOWEL SIGN UE..SHARADA VOWEL SIGN SHORT E",
text! "11B66         ; Case_Ignorable # Mn       SHARADA VOWEL SIGN CANDRA E",
text! "11C30..11C36  ; Case_Ignorable # Mn   [7] BHAIKSUKI VOWEL SIGN I..BHAIKSUKI VOWEL SIGN VOCALIC L",
text! "11C38..11C3D  ; Case_Ignorable # Mn   [6] BHAIKSUKI VOWEL SIGN E..BHAIKSUKI SIGN ANUSVARA",
text! "11C3F         ; Case_Ignorable # Mn       BHAIKSUKI SIGN VIRAMA",
text! "11C92..11CA7  ; Case_Ignorable # Mn  [22] MARCHEN SUBJOINED LETTER KA..MARCHEN SUBJOINED LETTER ZA",
text! "11CAA..11CB0  ; Case_Ignorable # Mn   [7] MARCHEN SUBJOINED LETTER RA..MARCHEN VOWEL SIGN AA",
text! "11CB2..11CB3  ; Case_Ignorable # Mn   [2] MARCHEN VOWEL SIGN U..MARCHEN VOWEL SIGN E",
text! "11CB5..11CB6  ; Case_Ignorable # Mn   [2] MARCHEN SIGN ANUSVARA..MARCHEN SIGN CANDRABINDU",
text! "11D31..11D36  ; Case_Ignorable # Mn   [6] MASARAM GONDI VOWEL SIGN AA..MASARAM GONDI VOWEL SIGN VOCALIC R",
text! "11D3A         ; Case_Ignorable # Mn       MASARAM GONDI VOWEL SIGN E",
text! "11D3C..11D3D  ; Case_Ignorable # Mn   [2] MASARAM GONDI VOWEL SIGN AI..MASARAM GONDI VOWEL SIGN O",
text! "11D3F..11D45  ; Case_Ignorable # Mn   [7] MASARAM GONDI VOWEL SIGN AU..MASARAM GONDI VIRAMA",
text! "11D47         ; Case_Ignorable # Mn       MASARAM GONDI RA-KARA",
text! "11D90..11D91  ; Case_Ignorable # Mn   [2] GUNJALA GONDI VOWEL SIGN EE..GUNJALA GONDI VOWEL SIGN AI",
text! "11D95         ; Case_Ignorable # Mn       GUNJALA GONDI SIGN ANUSVARA",
text! "11D97         ; Case_Ignorable # Mn       GUNJALA GONDI VIRAMA",
text! "11DD9         ; Case_Ignorable # Lm       TOLONG SIKI SIGN SELA",
text! "11EF3..11EF4  ; Case_Ignorable # Mn   [2] MAKASAR VOWEL SIGN I..MAKASAR VOWEL SIGN U",
text! "11F00..11F01  ; Case_Ignorable # Mn   [2] KAWI SIGN CANDRABINDU..KAWI SIGN ANUSVARA",
text! "11F36..11F3A  ; Case_Ignorable # Mn   [5] KAWI VOWEL SIGN I..KAWI VOWEL SIGN VOCALIC R",
text! "11F40         ; Case_Ignorable # Mn       KAWI VOWEL SIGN EU",
text! "11F42         ; Case_Ignorable # Mn       KAWI CONJOINER",
text! "11F5A         ; Case_Ignorable # Mn       KAWI SIGN NUKTA",
text! "13430..1343F  ; Case_Ignorable # Cf  [16] EGYPTIAN HIEROGLYPH VERTICAL JOINER..EGYPTIAN HIEROGLYPH END WALLED ENCLOSURE",
text! "13440         ; Case_Ignorable # Mn       EGYPTIAN HIEROGLYPH MIRROR HORIZONTALLY",
text! "13447..13455  ; Case_Ignorable # Mn  [15] EGYPTIAN HIEROGLYPH MODIFIER DAMAGED AT TOP START..EGYPTIAN HIEROGLYPH MODIFIER DAMAGED",
text! "1611E..16129  ; Case_Ignorable # Mn  [12] GURUNG KHEMA VOWEL SIGN AA..GURUNG KHEMA VOWEL LENGTH MARK",
text! "1612D..1612F  ; Case_Ignorable # Mn   [3] GURUNG KHEMA SIGN ANUSVARA..GURUNG KHEMA SIGN THOLHOMA",
text! "16AF0..16AF4  ; Case_Ignorable # Mn   [5] BASSA VAH COMBINING HIGH TONE..BASSA VAH COMBINING HIGH-LOW TONE",
text! "16B30..16B36  ; Case_Ignorable # Mn   [7] PAHAWH HMONG MARK CIM TUB..PAHAWH HMONG MARK CIM TAUM",
text! "16B40..16B43  ; Case_Ignorable # Lm   [4] PAHAWH HMONG SIGN VOS SEEV..PAHAWH HMONG SIGN IB YAM",
text! "16D40..16D42  ; Case_Ignorable # Lm   [3] KIRAT RAI SIGN ANUSVARA..KIRAT RAI SIGN VISARGA",
text! "16D6B..16D6C  ; Case_Ignorable # Lm   [2] KIRAT RAI SIGN VIRAMA..KIRAT RAI SIGN SAAT",
text! "16F4F         ; Case_Ignorable # Mn       MIAO SIGN CONSONANT MODIFIER BAR",
text! "16F8F..16F92  ; Case_Ignorable # Mn   [4] MIAO TONE RIGHT..MIAO TONE BELOW",
text! "16F93..16F9F  ; Case_Ignorable # Lm  [13] MIAO LETTER TONE-2..MIAO LETTER REFORMED TONE-8",
text! "16FE0..16FE1  ; Case_Ignorable # Lm   [2] TANGUT ITERATION MARK..NUSHU ITERATION MARK",
text! "16FE3         ; Case_Ignorable # Lm       OLD CHINESE ITERATION MARK",
text! "16FE4         ; Case_Ignorable # Mn       KHITAN SMALL SCRIPT FILLER",
text! "16FF2..16FF3  ; Case_Ignorable # Lm   [2] CHINESE SMALL SIMPLIFIED ER..CHINESE SMALL TRADITIONAL ER",
text! "1AFF0..1AFF3  ; Case_Ignorable # Lm   [4] KATAKANA LETTER MINNAN TONE-2..KATAKANA LETTER MINNAN TONE-5",
text! "1AFF5..1AFFB  ; Case_Ignorable # Lm   [7] KATAKANA LETTER MINNAN TONE-7..KATAKANA LETTER MINNAN NASALIZED TONE-5",
text! "1AFFD..1AFFE  ; Case_Ignorable # Lm   [2] KATAKANA LETTER MINNAN NASALIZED TONE-7..KATAKANA LETTER MINNAN NASALIZED TONE-8",
text! "1BC9D..1BC9E  ; Case_Ignorable # Mn   [2] DUPLOYAN THICK LETTER SELECTOR..DUPLOYAN DOUBLE MARK",
text! "1BCA0..1BCA3  ; Case_Ignorable # Cf   [4] SHORTHAND FORMAT LETTER OVERLAP..SHORTHAND FORMAT UP STEP",
text! "1CF00..1CF2D  ; Case_Ignorable # Mn  [46] ZNAMENNY COMBINING MARK GORAZDO NIZKO S KRYZHEM ON LEFT..ZNAMENNY COMBINING MARK KRYZH ON LEFT",
text! "1CF30..1CF46  ; Case_Ignorable # Mn  [23] ZNAMENNY COMBINING TONAL RANGE MARK MRACHNO..ZNAMENNY PRIZNAK MODIFIER ROG",
text! "1D167..1D169  ; Case_Ignorable # Mn   [3] MUSICAL SYMBOL COMBINING TREMOLO-1..MUSICAL SYMBOL COMBINING TREMOLO-3",
text! "1D173..1D17A  ; Case_Ignorable # Cf   [8] MUSICAL SYMBOL BEGIN BEAM..MUSICAL SYMBOL END PHRASE",
text! "1D17B..1D182  ; Case_Ignorable # Mn   [8] MUSICAL SYMBOL COMBINING ACCENT..MUSICAL SYMBOL COMBINING LOURE",
text! "1D185..1D18B  ; Case_Ignorable # Mn   [7] MUSICAL SYMBOL COMBINING DOIT..MUSICAL SYMBOL COMBINING TRIPLE TONGUE",
text! "1D1AA..1D1AD  ; Case_Ignorable # Mn   [4] MUSICAL SYMBOL COMBINING DOWN BOW..MUSICAL SYMBOL COMBINING SNAP PIZZICATO",
text! "1D242..1D244  ; Case_Ignorable # Mn   [3] COMBINING GREEK MUSICAL TRISEME..COMBINING GREEK MUSICAL PENTASEME",
text! "1DA00..1DA36  ; Case_Ignorable # Mn  [55] SIGNWRITING HEAD RIM..SIGNWRITING AIR SUCKING IN",
text! "1DA3B..1DA6C  ; Case_Ignorable # Mn  [50] SIGNWRITING MOUTH CLOSED NEUTRAL..SIGNWRITING EXCITEMENT",
text! "1DA75         ; Case_Ignorable # Mn       SIGNWRITING UPPER BODY TILTING FROM HIP JOINTS",
text! "1DA84         ; Case_Ignorable # Mn       SIGNWRITING LOCATION HEAD NECK"]

/-- lines 3521-3584 -/
def derivedCore55 : List Nat := [
text! "1DA9B..1DA9F  ; Case_Ignorable # Mn   [5] SIGNWRITING FILL MODIFIER-2..SIGNWRITING FILL MODIFIER-6",
text! "1DAA1..1DAAF  ; Case_Ignorable # Mn  [15] SIGNWRITING ROTATION MODIFIER-2..SIGNWRITING ROTATION MODIFIER-16",
text! "1E000..1E006  ; Case_Ignorable # Mn   [7] COMBINING GLAGOLITIC LETTER AZU..COMBINING GLAGOLITIC LETTER ZHIVETE",
text! "1E008..1E018  ; Case_Ignorable # Mn  [17] COMBINING GLAGOLITIC LETTER ZEMLJA..COMBINING GLAGOLITIC LETTER HERU",
text! "1E01B..1E021  ; Case_Ignorable # Mn   [7] COMBINING GLAGOLITIC LETTER SHTA..COMBINING GLAGOLITIC LETTER YATI",
text! "1E023..1E024  ; Case_Ignorable # Mn   [2] COMBINING GLAGOLITIC LETTER YU..COMBINING GLAGOLITIC LETTER SMALL YUS",
text! "1E026..1E02A  ; Case_Ignorable # Mn   [5] COMBINING GLAGOLITIC LETTER YO..COMBINING GLAGOLITIC LETTER FITA",
text! "1E030..1E06D  ; Case_Ignorable # Lm  [62] MODIFIER LETTER CYRILLIC SMALL A..MODIFIER LETTER CYRILLIC SMALL STRAIGHT U WITH STROKE",
text! "1E08F         ; Case_Ignorable # Mn       COMBINING CYRILLIC SMALL LETTER BYELORUSSIAN-UKRAINIAN I",
text! "1E130..1E136  ; Case_Ignorable # Mn   [7] NYIAKENG PUACHUE HMONG TONE-B..NYIAKENG PUACHUE HMONG TONE-D",
text! "1E137..1E13D  ; Case_Ignorable # Lm   [7] NYIAKENG PUACHUE HMONG SIGN FOR PERSON..NYIAKENG PUACHUE HMONG SYLLABLE LENGTHENER",
text! "1E2AE         ; Case_Ignorable # Mn       TOTO SIGN RISING TONE",
text! "1E2EC..1E2EF  ; Case_Ignorable # Mn   [4] WANCHO TONE TUP..WANCHO TONE KOINI",
text! "1E4EB         ; Case_Ignorable # Lm       NAG MUNDARI SIGN OJOD",
text! "1E4EC..1E4EF  ; Case_Ignorable # Mn   [4] NAG MUNDARI SIGN MUHOR..NAG MUNDARI SIGN SUTUH",
text! "1E5EE..1E5EF  ; Case_Ignorable # Mn   [2] OL ONAL SIGN MU..OL ONAL SIGN IKIR",
text! "1E6E3         ; Case_Ignorable # Mn       TAI YO SIGN UE",
text! "1E6E6         ; Case_Ignorable # Mn       TAI YO SIGN AU",
text! "1E6EE..1E6EF  ; Case_Ignorable # Mn   [2] TAI YO SIGN AY..TAI YO SIGN ANG",
text! "1E6F5         ; Case_Ignorable # Mn       TAI YO SIGN OM",
text! "1E6FF         ; Case_Ignorable # Lm       TAI YO XAM LAI",
text! "1E8D0..1E8D6  ; Case_Ignorable # Mn   [7] MENDE KIKAKUI COMBINING NUMBER TEENS..MENDE KIKAKUI COMBINING NUMBER MILLIONS",
text! "1E944..1E94A  ; Case_Ignorable # Mn   [7] ADLAM ALIF LENGTHENER..ADLAM NUKTA",
text! "1E94B         ; Case_Ignorable # Lm       ADLAM NASALIZATION MARK",
text! "1F3FB..1F3FF  ; Case_Ignorable # Sk   [5] EMOJI MODIFIER FITZPATRICK TYPE-1-2..EMOJI MODIFIER FITZPATRICK TYPE-6",
text! "E0001         ; Case_Ignorable # Cf       LANGUAGE TAG",
text! "E0020..E007F  ; Case_Ignorable # Cf  [96] TAG SPACE..CANCEL TAG",
text! "E0100..E01EF  ; Case_Ignorable # Mn [240] VARIATION SELECTOR-17..VARIATION SELECTOR-256",
text! "",
text! "# Total code points: 2794",
text! "",
text! "# ================================================",
text! "",
text! "# Derived Property:   Changes_When_Lowercased (CWL)",
text! "#  Characters whose normalized forms are not stable under a toLowercase mapping.",
text! "#  For more information, see the definition of \"isLowercase(X)\"",
text! "#  in the \"Conformance\" / \"Default Case Algorithms\" section of the core specification.",
text! "#  Changes_When_Lowercased(X) is true when toLowercase(toNFD(X)) != toNFD(X)",
text! "",
text! "0041..005A    ; Changes_When_Lowercased # L&  [26] LATIN CAPITAL LETTER A..LATIN CAPITAL LETTER Z",
text! "00C0..00D6    ; Changes_When_Lowercased # L&  [23] LATIN CAPITAL LETTER A WITH GRAVE..LATIN CAPITAL LETTER O WITH DIAERESIS",
text! "00D8..00DE    ; Changes_When_Lowercased # L&   [7] LATIN CAPITAL LETTER O WITH STROKE..LATIN CAPITAL LETTER THORN",
text! "0100          ; Changes_When_Lowercased # L&       LATIN CAPITAL LETTER A WITH MACRON",
text! "0102          ; Changes_When_Lowercased # L&       LATIN CAPITAL LETTER A WITH BREVE",
text! "0104          ; Changes_When_Lowercased # L&       LATIN CAPITAL LETTER A WITH OGONEK",
text! "0106          ; Changes_When_Lowercased # L&       LATIN CAPITAL LETTER C WITH ACUTE",
text! "0108          ; Changes_When_Lowercased # L&       LATIN CAPITAL LETTER C WITH CIRCUMFLEX",
text! "010A          ; Changes_When_Lowercased # L&       LATIN CAPITAL LETTER C WITH DOT ABOVE",
text! "010C          ; Changes_When_Lowercased # L&       LATIN CAPITAL LETTER C WITH CARON",
text! "010E          ; Changes_When_Lowercased # L&       LATIN CAPITAL LETTER D WITH CARON",
text! "0110          ; Changes_When_Lowercased # L&       LATIN CAPITAL LETTER D WITH STROKE",
text! "0112          ; Changes_When_Lowercased # L&       LATIN CAPITAL LETTER E WITH MACRON",
text! "0114          ; Changes_When_Lowercased # L&       LATIN CAPITAL LETTER E WITH BREVE",
text! "0116          ; Changes_When_Lowercased # L&       LATIN CAPITAL LETTER E WITH DOT ABOVE",
text! "0118          ; Changes_When_Lowercased # L&       LATIN CAPITAL LETTER E WITH OGONEK",
text! "011A          ; Changes_When_Lowercased # L&       LATIN CAPITAL LETTER E WITH CARON",
text! "011C          ; Changes_When_Lowercased # L&       LATIN CAPITAL LETTER G WITH CIRCUMFLEX",
text! "011E          ; Changes_When_Lowercased # L&       LATIN CAPITAL LETTER G WITH BREVE",
text! "0120          ; Changes_When_Lowercased # L&       LATIN CAPITAL LETTER G WITH DOT ABOVE",
text! "0122          ; Changes_When_Lowercased # L&       LATIN CAPITAL LETTER G WITH CEDILLA",
text! "0124          ; Changes_When_Lowercased # L&       LATIN CAPITAL LETTER H WITH CIRCUMFLEX",
text! "0126          ; Changes_When_Lowercased # L&       LATIN CAPITAL LETTER H WITH STROKE",
text! "0128          ; Changes_When_Lowercased # L&       LATIN CAPITAL LETTER I WITH TILDE",
text! "012A          ; Changes_When_Lowercased # L&       LATIN CAPITAL LETTER I WITH MACRON"]

/-- lines 3585-3648 -/
def derivedCore56 : List Nat := [
text! "012C          ; Changes_When_Lowercased # L&       LATIN CAPITAL LETTER I WITH BREVE",
text! "012E          ; Changes_When_Lowercased # L&       LATIN CAPITAL LETTER I WITH OGONEK",
text! "0130          ; Changes_When_Lowercased # L&       LATIN CAPITAL LETTER I WITH DOT ABOVE",
text! "0132          ; Changes_When_Lowercased # L&       LATIN CAPITAL LIGATURE IJ",
text! "0134          ; Changes_When_Lowercased # L&       LATIN CAPITAL LETTER J WITH CIRCUMFLEX",
text! "0136          ; Changes_When_Lowercased # L&       LATIN CAPITAL LETTER K WITH CEDILLA",
text! "0139          ; Changes_When_Lowercased # L&       LATIN CAPITAL LETTER L WITH ACUTE",
text! "013B          ; Changes_When_Lowercased # L&       LATIN CAPITAL LETTER L WITH CEDILLA",
text! "013D          ; Changes_When_Lowercased # L&       LATIN CAPITAL LETTER L WITH CARON",
text! "013F          ; Changes_When_Lowercased # L&       LATIN CAPITAL LETTER L WITH MIDDLE DOT",
text! "0141          ; Changes_When_Lowercased # L&       LATIN CAPITAL LETTER L WITH STROKE",
text! "0143          ; Changes_When_Lowercased # L&       LATIN CAPITAL LETTER N WITH ACUTE",
text! "0145          ; Changes_When_Lowercased # L&       LATIN CAPITAL LETTER N WITH CEDILLA",
text! "0147          ; Changes_When_Lowercased # L&       LATIN CAPITAL LETTER N WITH CARON",
text! "014A          ; Changes_When_Lowercased # L&       LATIN CAPITAL LETTER ENG",
text! "014C          ; Changes_When_Lowercased # L&       LATIN CAPITAL LETTER O WITH MACRON",
text! "014E          ; Changes_When_Lowercased # L&       LATIN CAPITAL LETTER O WITH BREVE",
text! "0150          ; Changes_When_Lowercased # L&       LATIN CAPITAL LETTER O WITH DOUBLE ACUTE",
text! "0152          ; Changes_When_Lowercased # L&       LATIN CAPITAL LIGATURE OE",
text! "0154          ; Changes_When_Lowercased # L&       LATIN CAPITAL LETTER R WITH ACUTE",
text! "0156          ; Changes_When_Lowercased # L&       LATIN CAPITAL LETTER R WITH CEDILLA",
text! "0158          ; Changes_When_Lowercased # L&       LATIN CAPITAL LETTER R WITH CARON",
text! "015A          ; Changes_When_Lowercased # L&       LATIN CAPITAL LETTER S WITH ACUTE",
text! "015C          ; Changes_When_Lowercased # L&       LATIN CAPITAL LETTER S WITH CIRCUMFLEX",
text! "015E          ; Changes_When_Lowercased # L&       LATIN CAPITAL LETTER S WITH CEDILLA",
text! "0160          ; Changes_When_Lowercased # L&       LATIN CAPITAL LETTER S WITH CARON",
text! "0162          ; Changes_When_Lowercased # L&       LATIN CAPITAL LETTER T WITH CEDILLA",
text! "0164          ; Changes_When_Lowercased # L&       LATIN CAPITAL LETTER T WITH CARON",
text! "0166          ; Changes_When_Lowercased # L&       LATIN CAPITAL LETTER T WITH STROKE",
text! "0168          ; Changes_When_Lowercased # L&       LATIN CAPITAL LETTER U WITH TILDE",
text! "016A          ; Changes_When_Lowercased # L&       LATIN CAPITAL LETTER U WITH MACRON",
text! "016C          ; Changes_When_Lowercased # L&       LATIN CAPITAL LETTER U WITH BREVE",
text! "016E          ; Changes_When_Lowercased # L&       LATIN CAPITAL LETTER U WITH RING ABOVE",
text! "0170          ; Changes_When_Lowercased # L&       LATIN CAPITAL LETTER U WITH DOUBLE ACUTE",
text! "0172          ; Changes_When_Lowercased # L&       LATIN CAPITAL LETTER U WITH OGONEK",
text! "0174          ; Changes_When_Lowercased # L&       LATIN CAPITAL LETTER W WITH CIRCUMFLEX",
text! "0176          ; Changes_When_Lowercased # L&       LATIN CAPITAL LETTER Y WITH CIRCUMFLEX",
text! "0178..0179    ; Changes_When_Lowercased # L&   [2] LATIN CAPITAL LETTER Y WITH DIAERESIS..LATIN CAPITAL LETTER Z WITH ACUTE",
text! "017B          ; Changes_When_Lowercased # L&       LATIN CAPITAL LETTER Z WITH DOT ABOVE",
text! "017D          ; Changes_When_Lowercased # L&       LATIN CAPITAL LETTER Z WITH CARON",
text! "0181..0182    ; Changes_When_Lowercased # L&   [2] LATIN CAPITAL LETTER B WITH HOOK..LATIN CAPITAL LETTER B WITH TOPBAR",
text! "0184          ; Changes_When_Lowercased # L&       LATIN CAPITAL LETTER TONE SIX",
text! "0186..0187    ; Changes_When_Lowercased # L&   [2] LATIN CAPITAL LETTER OPEN O..LATIN CAPITAL LETTER C WITH HOOK",
text! "0189..018B    ; Changes_When_Lowercased # L&   [3] LATIN CAPITAL LETTER AFRICAN D..LATIN CAPITAL LETTER D WITH TOPBAR",
text! "018E..0191    ; Changes_When_Lowercased # L&   [4] LATIN CAPITAL LETTER REVERSED E..LATIN CAPITAL LETTER F WITH HOOK",
text! "0193..0194    ; Changes_When_Lowercased # L&   [2] LATIN CAPITAL LETTER G WITH HOOK..LATIN CAPITAL LETTER GAMMA",
text! "0196..0198    ; Changes_When_Lowercased # L&   [3] LATIN CAPITAL LETTER IOTA..LATIN CAPITAL LETTER K WITH HOOK",
text! "019C..019D    ; Changes_When_Lowercased # L&   [2] LATIN CAPITAL LETTER TURNED M..LATIN CAPITAL LETTER N WITH LEFT HOOK",
text! "019F..01A0    ; Changes_When_Lowercased # L&   [2] LATIN CAPITAL LETTER O WITH MIDDLE TILDE..LATIN CAPITAL LETTER O WITH HORN",
text! "01A2          ; Changes_When_Lowercased # L&       LATIN CAPITAL LETTER OI",
text! "01A4          ; Changes_When_Lowercased # L&       LATIN CAPITAL LETTER P WITH HOOK",
text! "01A6..01A7    ; Changes_When_Lowercased # L&   [2] LATIN LETTER YR..LATIN CAPITAL LETTER TONE TWO",
text! "01A9          ; Changes_When_Lowercased # L&       LATIN CAPITAL LETTER ESH",
text! "01AC          ; Changes_When_Lowercased # L&       LATIN CAPITAL LETTER T WITH HOOK",
text! "01AE..01AF    ; Changes_When_Lowercased # L&   [2] LATIN CAPITAL LETTER T WITH RETROFLEX HOOK..LATIN CAPITAL LETTER U WITH HORN",
text! "01B1..01B3    ; Changes_When_Lowercased # L&   [3] LATIN CAPITAL LETTER UPSILON..LATIN CAPITAL LETTER Y WITH HOOK",
text! "01B5          ; Changes_When_Lowercased # L&       LATIN CAPITAL LETTER Z WITH STROKE",
text! "01B7..01B8    ; Changes_When_Lowercased # L&   [2] LATIN CAPITAL LETTER EZH..LATIN CAPITAL LETTER EZH REVERSED",
text! "01BC          ; Changes_When_Lowercased # L&       LATIN CAPITAL LETTER TONE FIVE",
text! "01C4..01C5    ; Changes_When_Lowercased # L&   [2] LATIN CAPITAL LETTER DZ WITH CARON..LATIN CAPITAL LETTER D WITH SMALL LETTER Z WITH CARON",
text! "01C7..01C8    ; Changes_When_Lowercased # L&   [2] LATIN CAPITAL LETTER LJ..LATIN CAPITAL LETTER L WITH SMALL LETTER J",
text! "01CA..01CB    ; Changes_When_Lowercased # L&   [2] LATIN CAPITAL LETTER NJ..LATIN CAPITAL LETTER N WITH SMALL LETTER J",
text! "01CD          ; Changes_When_Lowercased # L&       LATIN CAPITAL LETTER A WITH CARON",
text! "01CF          ; Changes_When_Lowercased # L&       LATIN CAPITAL LETTER I WITH CARON"]

/-- lines 3649-3712 -/
def derivedCore57 : List Nat := [
text! "01D1          ; Changes_When_Lowercased # L&       LATIN CAPITAL LETTER O WITH CARON",
text! "01D3          ; Changes_When_Lowercased # L&       LATIN CAPITAL LETTER U WITH CARON",
text! "01D5          ; Changes_When_Lowercased # L&       LATIN CAPITAL LETTER U WITH DIAERESIS AND MACRON",
text! "01D7          ; Changes_When_Lowercased # L&       LATIN CAPITAL LETTER U WITH DIAERESIS AND ACUTE",
text! "01D9          ; Changes_When_Lowercased # L&       LATIN CAPITAL LETTER U WITH DIAERESIS AND CARON",
text! "01DB          ; Changes_When_Lowercased # L&       LATIN CAPITAL LETTER U WITH DIAERESIS AND GRAVE",
text! "01DE          ; Changes_When_Lowercased # L&       LATIN CAPITAL LETTER A WITH DIAERESIS AND MACRON",
text! "01E0          ; Changes_When_Lowercased # L&       LATIN CAPITAL LETTER A WITH DOT ABOVE AND MACRON",
text! "01E2          ; Changes_When_Lowercased # L&       LATIN CAPITAL LETTER AE WITH MACRON",
text! "01E4          ; Changes_When_Lowercased # L&       LATIN CAPITAL LETTER G WITH STROKE",
text! "01E6          ; Changes_When_Lowercased # L&       LATIN CAPITAL LETTER G WITH CARON",
text! "01E8          ; Changes_When_Lowercased # L&       LATIN CAPITAL LETTER K WITH CARON",
text! "01EA          ; Changes_When_Lowercased # L&       LATIN CAPITAL LETTER O WITH OGONEK",
text! "01EC          ; Changes_When_Lowercased # L&       LATIN CAPITAL LETTER O WITH OGONEK AND MACRON",
text! "01EE          ; Changes_When_Lowercased # L&       LATIN CAPITAL LETTER EZH WITH CARON",
text! "01F1..01F2    ; Changes_When_Lowercased # L&   [2] LATIN CAPITAL LETTER DZ..LATIN CAPITAL LETTER D WITH SMALL LETTER Z",
text! "01F4          ; Changes_When_Lowercased # L&       LATIN CAPITAL LETTER G WITH ACUTE",
text! "01F6..01F8    ; Changes_When_Lowercased # L&   [3] LATIN CAPITAL LETTER HWAIR..LATIN CAPITAL LETTER N WITH GRAVE",
text! "01FA          ; Changes_When_Lowercased # L&       LATIN CAPITAL LETTER A WITH RING ABOVE AND ACUTE",
text! "01FC          ; Changes_When_Lowercased # L&       LATIN CAPITAL LETTER AE WITH ACUTE",
text! "01FE          ; Changes_When_Lowercased # L&       LATIN CAPITAL LETTER O WITH STROKE AND ACUTE",
text! "0200          ; Changes_When_Lowercased # L&       LATIN CAPITAL LETTER A WITH DOUBLE GRAVE",
text! "0202          ; Changes_When_Lowercased # L&       LATIN CAPITAL LETTER A WITH INVERTED BREVE",
text! "0204          ; Changes_When_Lowercased # L&       LATIN CAPITAL LETTER E WITH DOUBLE GRAVE",
text! "0206          ; Changes_When_Lowercased # L&       LATIN CAPITAL LETTER E WITH INVERTED BREVE",
text! "0208          ; Changes_When_Lowercased # L&       LATIN CAPITAL LETTER I WITH DOUBLE GRAVE",
text! "020A          ; Changes_When_Lowercased # L&       LATIN CAPITAL LETTER I WITH INVERTED BREVE",
text! "020C          ; Changes_When_Lowercased # L&       LATIN CAPITAL LETTER O WITH DOUBLE GRAVE",
text! "020E          ; Changes_When_Lowercased # L&       LATIN CAPITAL LETTER O WITH INVERTED BREVE",
text! "0210          ; Changes_When_Lowercased # L&       LATIN CAPITAL LETTER R WITH DOUBLE GRAVE",
text! "0212          ; Changes_When_Lowercased # L&       LATIN CAPITAL LETTER R WITH INVERTED BREVE",
text! "0214          ; Changes_When_Lowercased # L&       LATIN CAPITAL LETTER U WITH DOUBLE GRAVE",
text! "0216          ; Changes_When_Lowercased # L&       LATIN CAPITAL LETTER U WITH INVERTED BREVE",
text! "0218          ; Changes_When_Lowercased # L&       LATIN CAPITAL LETTER S WITH COMMA BELOW",
text! "021A          ; Changes_When_Lowercased # L&       LATIN CAPITAL LETTER T WITH COMMA BELOW",
text! "021C          ; Changes_When_Lowercased # L&       LATIN CAPITAL LETTER YOGH",
text! "021E          ; Changes_When_Lowercased # L&       LATIN CAPITAL LETTER H WITH CARON",
text! "0220          ; Changes_When_Lowercased # L&       LATIN CAPITAL LETTER N WITH LONG RIGHT LEG",
text! "0222          ; Changes_When_Lowercased # L&       LATIN CAPITAL LETTER OU",
text! "0224          ; Changes_When_Lowercased # L&       LATIN CAPITAL LETTER Z WITH HOOK",
text! "0226          ; Changes_When_Lowercased # L&       LATIN CAPITAL LETTER A WITH DOT ABOVE",
text! "0228          ; Changes_When_Lowercased # L&       LATIN CAPITAL LETTER E WITH CEDILLA",
text! "022A          ; Changes_When_Lowercased # L&       LATIN CAPITAL LETTER O WITH DIAERESIS AND MACRON",
text! "022C          ; Changes_When_Lowercased # L&       LATIN CAPITAL LETTER O WITH TILDE AND MACRON",
text! "022E          ; Changes_When_Lowercased # L&       LATIN CAPITAL LETTER O WITH DOT ABOVE",
text! "0230          ; Changes_When_Lowercased # L&       LATIN CAPITAL LETTER O WITH DOT ABOVE AND MACRON",
text! "0232          ; Changes_When_Lowercased # L&       LATIN CAPITAL LETTER Y WITH MACRON",
text! "023A..023B    ; Changes_When_Lowercased # L&   [2] LATIN CAPITAL LETTER A WITH STROKE..LATIN CAPITAL LETTER C WITH STROKE",
text! "023D..023E    ; Changes_When_Lowercased # L&   [2] LATIN CAPITAL LETTER L WITH BAR..LATIN CAPITAL LETTER T WITH DIAGONAL STROKE",
text! "0241          ; Changes_When_Lowercased # L&       LATIN CAPITAL LETTER GLOTTAL STOP",
text! "0243..0246    ; Changes_When_Lowercased # L&   [4] LATIN CAPITAL LETTER B WITH STROKE..LATIN CAPITAL LETTER E WITH STROKE",
text! "0248          ; Changes_When_Lowercased # L&       LATIN CAPITAL LETTER J WITH STROKE",
text! "024A          ; Changes_When_Lowercased # L&       LATIN CAPITAL LETTER SMALL Q WITH HOOK TAIL",
text! "024C          ; Changes_When_Lowercased # L&       LATIN CAPITAL LETTER R WITH STROKE",
text! "024E          ; Changes_When_Lowercased # L&       LATIN CAPITAL LETTER Y WITH STROKE",
text! "0370          ; Changes_When_Lowercased # L&       GREEK CAPITAL LETTER HETA",
text! "0372          ; Changes_When_Lowercased # L&       GREEK CAPITAL LETTER ARCHAIC SAMPI",
text! "0376          ; Changes_When_Lowercased # L&       GREEK CAPITAL LETTER PAMPHYLIAN DIGAMMA",
text! "037F          ; Changes_When_Lowercased # L&       GREEK CAPITAL LETTER YOT",
text! "0386          ; Changes_When_Lowercased # L&       GREEK CAPITAL LETTER ALPHA WITH TONOS",
text! "0388..038A    ; Changes_When_Lowercased # L&   [3] GREEK CAPITAL LETTER EPSILON WITH TONOS..GREEK CAPITAL LETTER IOTA WITH TONOS",
text! "038C          ; Changes_When_Lowercased # L&       GREEK CAPITAL LETTER OMICRON WITH TONOS",
text! "038E..038F    ; Changes_When_Lowercased # L&   [2] GREEK CAPITAL LETTER UPSILON WITH TONOS..GREEK CAPITAL LETTER OMEGA WITH TONOS",
text! "0391..03A1    ; Changes_When_Lowercased # L&  [17] GREEK CAPITAL LETTER ALPHA..GREEK CAPITAL LETTER RHO"]

/-- lines 3713-3776 -/
def derivedCore58 : List Nat := [
text! "03A3..03AB    ; Changes_When_Lowercased # L&   [9] GREEK CAPITAL LETTER SIGMA..GREEK CAPITAL LETTER UPSILON WITH DIALYTIKA",
text! "03CF          ; Changes_When_Lowercased # L&       GREEK CAPITAL KAI SYMBOL",
text! "03D8          ; Changes_When_Lowercased # L&       GREEK LETTER ARCHAIC KOPPA",
text! "03DA          ; Changes_When_Lowercased # L&       GREEK LETTER STIGMA",
text! "03DC          ; Changes_When_Lowercased # L&       GREEK LETTER DIGAMMA",
text! "03DE          ; Changes_When_Lowercased # L&       GREEK LETTER KOPPA",
text! "03E0          ; Changes_When_Lowercased # L&       GREEK LETTER SAMPI",
text! "03E2          ; Changes_When_Lowercased # L&       COPTIC CAPITAL LETTER SHEI",
text! "03E4          ; Changes_When_Lowercased # L&       COPTIC CAPITAL LETTER FEI",
text! "03E6          ; Changes_When_Lowercased # L&       COPTIC CAPITAL LETTER KHEI",
text! "03E8          ; Changes_When_Lowercased # L&       COPTIC CAPITAL LETTER HORI",
text! "03EA          ; Changes_When_Lowercased # L&       COPTIC CAPITAL LETTER GANGIA",
text! "03EC          ; Changes_When_Lowercased # L&       COPTIC CAPITAL LETTER SHIMA",
text! "03EE          ; Changes_When_Lowercased # L&       COPTIC CAPITAL LETTER DEI",
text! "03F4          ; Changes_When_Lowercased # L&       GREEK CAPITAL THETA SYMBOL",
text! "03F7          ; Changes_When_Lowercased # L&       GREEK CAPITAL LETTER SHO",
text! "03F9..03FA    ; Changes_When_Lowercased # L&   [2] GREEK CAPITAL LUNATE SIGMA SYMBOL..GREEK CAPITAL LETTER SAN",
text! "03FD..042F    ; Changes_When_Lowercased # L&  [51] GREEK CAPITAL REVERSED LUNATE SIGMA SYMBOL..CYRILLIC CAPITAL LETTER YA",
text! "0460          ; Changes_When_Lowercased # L&       CYRILLIC CAPITAL LETTER OMEGA",
text! "0462          ; Changes_When_Lowercased # L&       CYRILLIC CAPITAL LETTER YAT",
text! "0464          ; Changes_When_Lowercased # L&       CYRILLIC CAPITAL LETTER IOTIFIED E",
text! "0466          ; Changes_When_Lowercased # L&       CYRILLIC CAPITAL LETTER LITTLE YUS",
text! "0468          ; Changes_When_Lowercased # L&       CYRILLIC CAPITAL LETTER IOTIFIED LITTLE YUS",
text! "046A          ; Changes_When_Lowercased # L&       CYRILLIC CAPITAL LETTER BIG YUS",
text! "046C          ; Changes_When_Lowercased # L&       CYRILLIC CAPITAL LETTER IOTIFIED BIG YUS",
text! "046E          ; Changes_When_Lowercased # L&       CYRILLIC CAPITAL LETTER KSI",
text! "0470          ; Changes_When_Lowercased # L&       CYRILLIC CAPITAL LETTER PSI",
text! "0472          ; Changes_When_Lowercased # L&       CYRILLIC CAPITAL LETTER FITA",
text! "0474          ; Changes_When_Lowercased # L&       CYRILLIC CAPITAL LETTER IZHITSA",
text! "0476          ; Changes_When_Lowercased # L&       CYRILLIC CAPITAL LETTER IZHITSA WITH DOUBLE GRAVE ACCENT",
text! "0478          ; Changes_When_Lowercased # L&       CYRILLIC CAPITAL LETTER UK",
text! "047A          ; Changes_When_Lowercased # L&       CYRILLIC CAPITAL LETTER ROUND OMEGA",
text! "047C          ; Changes_When_Lowercased # L&       CYRILLIC CAPITAL LETTER OMEGA WITH TITLO",
text! "047E          ; Changes_When_Lowercased # L&       CYRILLIC CAPITAL LETTER OT",
text! "0480          ; Changes_When_Lowercased # L&       CYRILLIC CAPITAL LETTER KOPPA",
text! "048A          ; Changes_When_Lowercased # L&       CYRILLIC CAPITAL LETTER SHORT I WITH TAIL",
text! "048C          ; Changes_When_Lowercased # L&       CYRILLIC CAPITAL LETTER SEMISOFT SIGN",
text! "048E          ; Changes_When_Lowercased # L&       CYRILLIC CAPITAL LETTER ER WITH TICK",
text! "0490          ; Changes_When_Lowercased # L&       CYRILLIC CAPITAL LETTER GHE WITH UPTURN",
text! "0492          ; Changes_When_Lowercased # L&       CYRILLIC CAPITAL LETTER GHE WITH STROKE",
text! "0494          ; Changes_When_Lowercased # L&       CYRILLIC CAPITAL LETTER GHE WITH MIDDLE HOOK",
text! "0496          ; Changes_When_Lowercased # L&       CYRILLIC CAPITAL LETTER ZHE WITH DESCENDER",
text! "0498          ; Changes_When_Lowercased # L&       CYRILLIC CAPITAL LETTER ZE WITH DESCENDER",
text! "049A          ; Changes_When_Lowercased # L&       CYRILLIC CAPITAL LETTER KA WITH DESCENDER",
text! "049C          ; Changes_When_Lowercased # L&       CYRILLIC CAPITAL LETTER KA WITH VERTICAL STROKE",
text! "049E          ; Changes_When_Lowercased # L&       CYRILLIC CAPITAL LETTER KA WITH STROKE",
text! "04A0          ; Changes_When_Lowercased # L&       CYRILLIC CAPITAL LETTER BASHKIR KA",
text! "04A2          ; Changes_When_Lowercased # L&       CYRILLIC CAPITAL LETTER EN WITH DESCENDER",
text! "04A4          ; Changes_When_Lowercased # L&       CYRILLIC CAPITAL LIGATURE EN GHE",
text! "04A6          ; Changes_When_Lowercased # L&       CYRILLIC CAPITAL LETTER PE WITH MIDDLE HOOK",
text! "04A8          ; Changes_When_Lowercased # L&       CYRILLIC CAPITAL LETTER ABKHASIAN HA",
text! "04AA          ; Changes_When_Lowercased # L&       CYRILLIC CAPITAL LETTER ES WITH DESCENDER",
text! "04AC          ; Changes_When_Lowercased # L&       CYRILLIC CAPITAL LETTER TE WITH DESCENDER",
text! "04AE          ; Changes_When_Lowercased # L&       CYRILLIC CAPITAL LETTER STRAIGHT U",
text! "04B0          ; Changes_When_Lowercased # L&       CYRILLIC CAPITAL LETTER STRAIGHT U WITH STROKE",
text! "04B2          ; Changes_When_Lowercased # L&       CYRILLIC CAPITAL LETTER HA WITH DESCENDER",
text! "04B4          ; Changes_When_Lowercased # L&       CYRILLIC CAPITAL LIGATURE TE TSE",
text! "04B6          ; Changes_When_Lowercased # L&       CYRILLIC CAPITAL LETTER CHE WITH DESCENDER",
text! "04B8          ; Changes_When_Lowercased # L&       CYRILLIC CAPITAL LETTER CHE WITH VERTICAL STROKE",
text! "04BA          ; Changes_When_Lowercased # L&       CYRILLIC CAPITAL LETTER SHHA",
text! "04BC          ; Changes_When_Lowercased # L&       CYRILLIC CAPITAL LETTER ABKHASIAN CHE",
text! "04BE          ; Changes_When_Lowercased # L&       CYRILLIC CAPITAL LETTER ABKHASIAN CHE WITH DESCENDER",
text! "04C0..04C1    ; Changes_When_Lowercased # L&   [2] CYRILLIC LETTER PALOCHKA..CYRILLIC CAPITAL LETTER ZHE WITH BREVE",
text! "04C3          ; Changes_When_Lowercased # L&       CYRILLIC CAPITAL LETTER KA WITH HOOK"]

/-- lines 3777-3840 -/
def derivedCore59 : List Nat := [
text! "04C5          ; Changes_When_Lowercased # L&       CYRILLIC CAPITAL LETTER EL WITH TAIL",
text! "04C7          ; Changes_When_Lowercased # L&       CYRILLIC CAPITAL LETTER EN WITH HOOK",
text! "04C9          ; Changes_When_Lowercased # L&       CYRILLIC CAPITAL LETTER EN WITH TAIL",
text! "04CB          ; Changes_When_Lowercased # L&       CYRILLIC CAPITAL LETTER KHAKASSIAN CHE",
text! "04CD          ; Changes_When_Lowercased # L&       CYRILLIC CAPITAL LETTER EM WITH TAIL",
text! "04D0          ; Changes_When_Lowercased # L&       CYRILLIC CAPITAL LETTER A WITH BREVE",
text! "04D2          ; Changes_When_Lowercased # L&       CYRILLIC CAPITAL LETTER A WITH DIAERESIS",
text! "04D4          ; Changes_When_Lowercased # L&       CYRILLIC CAPITAL LIGATURE A IE",
text! "04D6          ; Changes_When_Lowercased # L&       CYRILLIC CAPITAL LETTER IE WITH BREVE",
text! "04D8          ; Changes_When_Lowercased # L&       CYRILLIC CAPITAL LETTER SCHWA",
text! "04DA          ; Changes_When_Lowercased # L&       CYRILLIC CAPITAL LETTER SCHWA WITH DIAERESIS",
text! "04DC          ; Changes_When_Lowercased # L&       CYRILLIC CAPITAL LETTER ZHE WITH DIAERESIS",
text! "04DE          ; Changes_When_Lowercased # L&       CYRILLIC CAPITAL LETTER ZE WITH DIAERESIS",
text! "04E0          ; Changes_When_Lowercased # L&       CYRILLIC CAPITAL LETTER ABKHASIAN DZE",
text! "04E2          ; Changes_When_Lowercased # L&       CYRILLIC CAPITAL LETTER I WITH MACRON",
text! "04E4          ; Changes_When_Lowercased # L&       CYRILLIC CAPITAL LETTER I WITH DIAERESIS",
text! "04E6          ; Changes_When_Lowercased # L&       CYRILLIC CAPITAL LETTER O WITH DIAERESIS",
text! "04E8          ; Changes_When_Lowercased # L&       CYRILLIC CAPITAL LETTER BARRED O",
text! "04EA          ; Changes_When_Lowercased # L&       CYRILLIC CAPITAL LETTER BARRED O WITH DIAERESIS",
text! "04EC          ; Changes_When_Lowercased # L&       CYRILLIC CAPITAL LETTER E WITH DIAERESIS",
text! "04EE          ; Changes_When_Lowercased # L&       CYRILLIC CAPITAL LETTER U WITH MACRON",
text! "04F0          ; Changes_When_Lowercased # L&       CYRILLIC CAPITAL LETTER U WITH DIAERESIS",
text! "04F2          ; Changes_When_Lowercased # L&       CYRILLIC CAPITAL LETTER U WITH DOUBLE ACUTE",
text! "04F4          ; Changes_When_Lowercased # L&       CYRILLIC CAPITAL LETTER CHE WITH DIAERESIS",
text! "04F6          ; Changes_When_Lowercased # L&       CYRILLIC CAPITAL LETTER GHE WITH DESCENDER",
text! "04F8          ; Changes_When_Lowercased # L&       CYRILLIC CAPITAL LETTER YERU WITH DIAERESIS",
text! "04FA          ; Changes_When_Lowercased # L&       CYRILLIC CAPITAL LETTER GHE WITH STROKE AND HOOK",
text! "04FC          ; Changes_When_Lowercased # L&       CYRILLIC CAPITAL LETTER HA WITH HOOK",
text! "04FE          ; Changes_When_Lowercased # L&       CYRILLIC CAPITAL LETTER HA WITH STROKE",
text! "0500          ; Changes_When_Lowercased # L&       CYRILLIC CAPITAL LETTER KOMI DE",
text! "0502          ; Changes_When_Lowercased # L&       CYRILLIC CAPITAL LETTER KOMI DJE",
text! "0504          ; Changes_When_Lowercased # L&       CYRILLIC CAPITAL LETTER KOMI ZJE",
text! "0506          ; Changes_When_Lowercased # L&       CYRILLIC CAPITAL LETTER KOMI DZJE",
text! "0508          ; Changes_When_Lowercased # L&       CYRILLIC CAPITAL LETTER KOMI LJE",
text! "050A          ; Changes_When_Lowercased # L&       CYRILLIC CAPITAL LETTER KOMI NJE",
text! "050C          ; Changes_When_Lowercased # L&       CYRILLIC CAPITAL LETTER KOMI SJE",
text! "050E          ; Changes_When_Lowercased # L&       CYRILLIC CAPITAL LETTER KOMI TJE",
text! "0510          ; Changes_When_Lowercased # L&       CYRILLIC CAPITAL LETTER REVERSED ZE",
text! "0512          ; Changes_When_Lowercased # L&       CYRILLIC CAPITAL LETTER EL WITH HOOK",
text! "0514          ; Changes_When_Lowercased # L&       CYRILLIC CAPITAL LETTER LHA",
text! "0516          ; Changes_When_Lowercased # L&       CYRILLIC CAPITAL LETTER RHA",
text! "0518          ; Changes_When_Lowercased # L&       CYRILLIC CAPITAL LETTER YAE",
text! "051A          ; Changes_When_Lowercased # L&       CYRILLIC CAPITAL LETTER QA",
text! "051C          ; Changes_When_Lowercased # L&       CYRILLIC CAPITAL LETTER WE",
text! "051E          ; Changes_When_Lowercased # L&       CYRILLIC CAPITAL LETTER ALEUT KA",
text! "0520          ; Changes_When_Lowercased # L&       CYRILLIC CAPITAL LETTER EL WITH MIDDLE HOOK",
text! "0522          ; Changes_When_Lowercased # L&       CYRILLIC CAPITAL LETTER EN WITH MIDDLE HOOK",
text! "0524          ; Changes_When_Lowercased # L&       CYRILLIC CAPITAL LETTER PE WITH DESCENDER",
text! "0526          ; Changes_When_Lowercased # L&       CYRILLIC CAPITAL LETTER SHHA WITH DESCENDER",
text! "0528          ; Changes_When_Lowercased # L&       CYRILLIC CAPITAL LETTER EN WITH LEFT HOOK",
text! "052A          ; Changes_When_Lowercased # L&       CYRILLIC CAPITAL LETTER DZZHE",
text! "052C          ; Changes_When_Lowercased # L&       CYRILLIC CAPITAL LETTER DCHE",
text! "052E          ; Changes_When_Lowercased # L&       CYRILLIC CAPITAL LETTER EL WITH DESCENDER",
text! "0531..0556    ; Changes_When_Lowercased # L&  [38] ARMENIAN CAPITAL LETTER AYB..ARMENIAN CAPITAL LETTER FEH",
text! "10A0..10C5    ; Changes_When_Lowercased # L&  [38] GEORGIAN CAPITAL LETTER AN..GEORGIAN CAPITAL LETTER HOE",
text! "10C7          ; Changes_When_Lowercased # L&       GEORGIAN CAPITAL LETTER YN",
text! "10CD          ; Changes_When_Lowercased # L&       GEORGIAN CAPITAL LETTER AEN",
text! "13A0..13F5    ; Changes_When_Lowercased # L&  [86] CHEROKEE LETTER A..CHEROKEE LETTER MV",
text! "1C89          ; Changes_When_Lowercased # L&       CYRILLIC CAPITAL LETTER TJE",
text! "1C90..1CBA    ; Changes_When_Lowercased # L&  [43] GEORGIAN MTAVRULI CAPITAL LETTER AN..GEORGIAN MTAVRULI CAPITAL LETTER AIN",
text! "1CBD..1CBF    ; Changes_When_Lowercased # L&   [3] GEORGIAN MTAVRULI CAPITAL LETTER AEN..GEORGIAN MTAVRULI CAPITAL LETTER LABIAL SIGN",
text! "1E00          ; Changes_When_Lowercased # L&       LATIN CAPITAL LETTER A WITH RING BELOW",
text! "1E02          ; Changes_When_Lowercased # L&       LATIN CAPITAL LETTER B WITH DOT ABOVE",
text! "1E04          ; Changes_When_Lowercased # L&       LATIN CAPITAL LETTER B WITH DOT BELOW"]

/-- lines 3841-3904 -/
def derivedCore60 : List Nat := [
text! "1E06          ; Changes_When_Lowercased # L&       LATIN CAPITAL LETTER B WITH LINE BELOW",
text! "1E08          ; Changes_When_Lowercased # L&       LATIN CAPITAL LETTER C WITH CEDILLA AND ACUTE",
text! "1E0A          ; Changes_When_Lowercased # L&       LATIN CAPITAL LETTER D WITH DOT ABOVE",
text! "1E0C          ; Changes_When_Lowercased # L&       LATIN CAPITAL LETTER D WITH DOT BELOW",
text! "1E0E          ; Changes_When_Lowercased # L&       LATIN CAPITAL LETTER D WITH LINE BELOW",
text! "1E10          ; Changes_When_Lowercased # L&       LATIN CAPITAL LETTER D WITH CEDILLA",
text! "1E12          ; Changes_When_Lowercased # L&       LATIN CAPITAL LETTER D WITH CIRCUMFLEX BELOW",
text! "1E14          ; Changes_When_Lowercased # L&       LATIN CAPITAL LETTER E WITH MACRON AND GRAVE",
text! "1E16          ; Changes_When_Lowercased # L&       LATIN CAPITAL LETTER E WITH MACRON AND ACUTE",
text! "1E18          ; Changes_When_Lowercased # L&       LATIN CAPITAL LETTER E WITH CIRCUMFLEX BELOW",
text! "1E1A          ; Changes_When_Lowercased # L&       LATIN CAPITAL LETTER E WITH TILDE BELOW",
text! "1E1C          ; Changes_When_Lowercased # L&       LATIN CAPITAL LETTER E WITH CEDILLA AND BREVE",
text! "1E1E          ; Changes_When_Lowercased # L&       LATIN CAPITAL LETTER F WITH DOT ABOVE",
text! "1E20          ; Changes_When_Lowercased # L&       LATIN CAPITAL LETTER G WITH MACRON",
text! "1E22          ; Changes_When_Lowercased # L&       LATIN CAPITAL LETTER H WITH DOT ABOVE",
text! "1E24          ; Changes_When_Lowercased # L&       LATIN CAPITAL LETTER H WITH DOT BELOW",
text! "1E26          ; Changes_When_Lowercased # L&       LATIN CAPITAL LETTER H WITH DIAERESIS",
text! "1E28          ; Changes_When_Lowercased # L&       LATIN CAPITAL LETTER H WITH CEDILLA",
text! "1E2A          ; Changes_When_Lowercased # L&       LATIN CAPITAL LETTER H WITH BREVE BELOW",
text! "1E2C          ; Changes_When_Lowercased # L&       LATIN CAPITAL LETTER I WITH TILDE BELOW",
text! "1E2E          ; Changes_When_Lowercased # L&       LATIN CAPITAL LETTER I WITH DIAERESIS AND ACUTE",
text! "1E30          ; Changes_When_Lowercased # L&       LATIN CAPITAL LETTER K WITH ACUTE",
text! "1E32          ; Changes_When_Lowercased # L&       LATIN CAPITAL LETTER K WITH DOT BELOW",
text! "1E34          ; Changes_When_Lowercased # L&       LATIN CAPITAL LETTER K WITH LINE BELOW",
text! "1E36          ; Changes_When_Lowercased # L&       LATIN CAPITAL LETTER L WITH DOT BELOW",
text! "1E38          ; Changes_When_Lowercased # L&       LATIN CAPITAL LETTER L WITH DOT BELOW AND MACRON",
text! "1E3A          ; Changes_When_Lowercased # L&       LATIN CAPITAL LETTER L WITH LINE BELOW",
text! "1E3C          ; Changes_When_Lowercased # L&       LATIN CAPITAL LETTER L WITH CIRCUMFLEX BELOW",
text! "1E3E          ; Changes_When_Lowercased # L&       LATIN CAPITAL LETTER M WITH ACUTE",
text! "1E40          ; Changes_When_Lowercased # L&       LATIN CAPITAL LETTER M WITH DOT ABOVE",
text! "1E42          ; Changes_When_Lowercased # L&       LATIN CAPITAL LETTER M WITH DOT BELOW",
text! "1E44          ; Changes_When_Lowercased # L&       LATIN CAPITAL LETTER N WITH DOT ABOVE",
text! "1E46          ; Changes_When_Lowercased # L&       LATIN CAPITAL LETTER N WITH DOT BELOW",
text! "1E48          ; Changes_When_Lowercased # L&       LATIN CAPITAL LETTER N WITH LINE BELOW",
text! "1E4A          ; Changes_When_Lowercased # L&       LATIN CAPITAL LETTER N WITH CIRCUMFLEX BELOW",
text! "1E4C          ; Changes_When_Lowercased # L&       LATIN CAPITAL LETTER O WITH TILDE AND ACUTE",
text! "1E4E          ; Changes_When_Lowercased # L&       LATIN CAPITAL LETTER O WITH TILDE AND DIAERESIS",
text! "1E50          ; Changes_When_Lowercased # L&       LATIN CAPITAL LETTER O WITH MACRON AND GRAVE",
text! "1E52          ; Changes_When_Lowercased # L&       LATIN CAPITAL LETTER O WITH MACRON AND ACUTE",
text! "1E54          ; Changes_When_Lowercased # L&       LATIN CAPITAL LETTER P WITH ACUTE",
text! "1E56          ; Changes_When_Lowercased # L&       LATIN CAPITAL LETTER P WITH DOT ABOVE",
text! "1E58          ; Changes_When_Lowercased # L&       LATIN CAPITAL LETTER R WITH DOT ABOVE",
text! "1E5A          ; Changes_When_Lowercased # L&       LATIN CAPITAL LETTER R WITH DOT BELOW",
text! "1E5C          ; Changes_When_Lowercased # L&       LATIN CAPITAL LETTER R WITH DOT BELOW AND MACRON",
text! "1E5E          ; Changes_When_Lowercased # L&       LATIN CAPITAL LETTER R WITH LINE BELOW",
text! "1E60          ; Changes_When_Lowercased # L&       LATIN CAPITAL LETTER S WITH DOT ABOVE",
text! "1E62          ; Changes_When_Lowercased # L&       LATIN CAPITAL LETTER S WITH DOT BELOW",
text! "1E64          ; Changes_When_Lowercased # L&       LATIN CAPITAL LETTER S WITH ACUTE AND DOT ABOVE",
text! "1E66          ; Changes_When_Lowercased # L&       LATIN CAPITAL LETTER S WITH CARON AND DOT ABOVE",
text! "1E68          ; Changes_When_Lowercased # L&       LATIN CAPITAL LETTER S WITH DOT BELOW AND DOT ABOVE",
text! "1E6A          ; Changes_When_Lowercased # L&       LATIN CAPITAL LETTER T WITH DOT ABOVE",
text! "1E6C          ; Changes_When_Lowercased # L&       LATIN CAPITAL LETTER T WITH DOT BELOW",
text! "1E6E          ; Changes_When_Lowercased # L&       LATIN CAPITAL LETTER T WITH LINE BELOW",
text! "1E70          ; Changes_When_Lowercased # L&       LATIN CAPITAL LETTER T WITH CIRCUMFLEX BELOW",
text! "1E72          ; Changes_When_Lowercased # L&       LATIN CAPITAL LETTER U WITH DIAERESIS BELOW",
text! "1E74          ; Changes_When_Lowercased # L&       LATIN CAPITAL LETTER U WITH TILDE BELOW",
text! "1E76          ; Changes_When_Lowercased # L&       LATIN CAPITAL LETTER U WITH CIRCUMFLEX BELOW",
text! "1E78          ; Changes_When_Lowercased # L&       LATIN CAPITAL LETTER U WITH TILDE AND ACUTE",
text! "1E7A          ; Changes_When_Lowercased # L&       LATIN CAPITAL LETTER U WITH MACRON AND DIAERESIS",
text! "1E7C          ; Changes_When_Lowercased # L&       LATIN CAPITAL LETTER V WITH TILDE",
text! "1E7E          ; Changes_When_Lowercased # L&       LATIN CAPITAL LETTER V WITH DOT BELOW",
text! "1E80          ; Changes_When_Lowercased # L&       LATIN CAPITAL LETTER W WITH GRAVE",
text! "1E82          ; Changes_When_Lowercased # L&       LATIN CAPITAL LETTER W WITH ACUTE",
text! "1E84          ; Changes_When_Lowercased # L&       LATIN CAPITAL LETTER W WITH DIAERESIS"]

/-- lines 3905-3968 -/
def derivedCore61 : List Nat := [
text! "1E86          ; Changes_When_Lowercased # L&       LATIN CAPITAL LETTER W WITH DOT ABOVE",
text! "1E88          ; Changes_When_Lowercased # L&       LATIN CAPITAL LETTER W WITH DOT BELOW",
text! "1E8A          ; Changes_When_Lowercased # L&       LATIN CAPITAL LETTER X WITH DOT ABOVE",
text! "1E8C          ; Changes_When_Lowercased # L&       LATIN CAPITAL LETTER X WITH DIAERESIS",
text! "1E8E          ; Changes_When_Lowercased # L&       LATIN CAPITAL LETTER Y WITH DOT ABOVE",
text! "1E90          ; Changes_When_Lowercased # L&       LATIN CAPITAL LETTER Z WITH CIRCUMFLEX",
text! "1E92          ; Changes_When_Lowercased # L&       LATIN CAPITAL LETTER Z WITH DOT BELOW",
text! "1E94          ; Changes_When_Lowercased # L&       LATIN CAPITAL LETTER Z WITH LINE BELOW",
text! "1E9E          ; Changes_When_Lowercased # L&       LATIN CAPITAL LETTER SHARP S",
text! "1EA0          ; Changes_When_Lowercased # L&       LATIN CAPITAL LETTER A WITH DOT BELOW",
text! "1EA2          ; Changes_When_Lowercased # L&       LATIN CAPITAL LETTER A WITH HOOK ABOVE",
text! "1EA4          ; Changes_When_Lowercased # L&       LATIN CAPITAL LETTER A WITH CIRCUMFLEX AND ACUTE",
text! "1EA6          ; Changes_When_Lowercased # L&       LATIN CAPITAL LETTER A WITH CIRCUMFLEX AND GRAVE",
text! "1EA8          ; Changes_When_Lowercased # L&       LATIN CAPITAL LETTER A WITH CIRCUMFLEX AND HOOK ABOVE",
text! "1EAA          ; Changes_When_Lowercased # L&       LATIN CAPITAL LETTER A WITH CIRCUMFLEX AND TILDE",
text! "1EAC          ; Changes_When_Lowercased # L&       LATIN CAPITAL LETTER A WITH CIRCUMFLEX AND DOT BELOW",
text! "1EAE          ; Changes_When_Lowercased # L&       LATIN CAPITAL LETTER A WITH BREVE AND ACUTE",
text! "1EB0          ; Changes_When_Lowercased # L&       LATIN CAPITAL LETTER A WITH BREVE AND GRAVE",
text! "1EB2          ; Changes_When_Lowercased # L&       LATIN CAPITAL LETTER A WITH BREVE AND HOOK ABOVE",
text! "1EB4          ; Changes_When_Lowercased # L&       LATIN CAPITAL LETTER A WITH BREVE AND TILDE",
text! "1EB6          ; Changes_When_Lowercased # L&       LATIN CAPITAL LETTER A WITH BREVE AND DOT BELOW",
text! "1EB8          ; Changes_When_Lowercased # L&       LATIN CAPITAL LETTER E WITH DOT BELOW",
text! "1EBA          ; Changes_When_Lowercased # L&       LATIN CAPITAL LETTER E WITH HOOK ABOVE",
text! "1EBC          ; Changes_When_Lowercased # L&       LATIN CAPITAL LETTER E WITH TILDE",
text! "1EBE          ; Changes_When_Lowercased # L&       LATIN CAPITAL LETTER E WITH CIRCUMFLEX AND ACUTE",
text! "1EC0          ; Changes_When_Lowercased # L&       LATIN CAPITAL LETTER E WITH CIRCUMFLEX AND GRAVE",
text! "1EC2          ; Changes_When_Lowercased # L&       LATIN CAPITAL LETTER E WITH CIRCUMFLEX AND HOOK ABOVE",
text! "1EC4          ; Changes_When_Lowercased # L&       LATIN CAPITAL LETTER E WITH CIRCUMFLEX AND TILDE",
text! "1EC6          ; Changes_When_Lowercased # L&       LATIN CAPITAL LETTER E WITH CIRCUMFLEX AND DOT BELOW",
text! "1EC8          ; Changes_When_Lowercased # L&       LATIN CAPITAL LETTER I WITH HOOK ABOVE",
text! "1ECA          ; Changes_When_Lowercased # L&       LATIN CAPITAL LETTER I WITH DOT BELOW",
text! "1ECC          ; Changes_When_Lowercased # L&       LATIN CAPITAL LETTER O WITH DOT BELOW",
text! "1ECE          ; Changes_When_Lowercased # L&       LATIN CAPITAL LETTER O WITH HOOK ABOVE",
text! "1ED0          ; Changes_When_Lowercased # L&       LATIN CAPITAL LETTER O WITH CIRCUMFLEX AND ACUTE",
text! "1ED2          ; Changes_When_Lowercased # L&       LATIN CAPITAL LETTER O WITH CIRCUMFLEX AND GRAVE",
text! "1ED4          ; Changes_When_Lowercased # L&       LATIN CAPITAL LETTER O WITH CIRCUMFLEX AND HOOK ABOVE",
text! "1ED6          ; Changes_When_Lowercased # L&       LATIN CAPITAL LETTER O WITH CIRCUMFLEX AND TILDE",
text! "1ED8          ; Changes_When_Lowercased # L&       LATIN CAPITAL LETTER O WITH CIRCUMFLEX AND DOT BELOW",
text! "1EDA          ; Changes_When_Lowercased # L&       LATIN CAPITAL LETTER O WITH HORN AND ACUTE",
text! "1EDC          ; Changes_When_Lowercased # L&       LATIN CAPITAL LETTER O WITH HORN AND GRAVE",
text! "1EDE          ; Changes_When_Lowercased # L&       LATIN CAPITAL LETTER O WITH HORN AND HOOK ABOVE",
text! "1EE0          ; Changes_When_Lowercased # L&       LATIN CAPITAL LETTER O WITH HORN AND TILDE",
text! "1EE2          ; Changes_When_Lowercased # L&       LATIN CAPITAL LETTER O WITH HORN AND DOT BELOW",
text! "1EE4          ; Changes_When_Lowercased # L&       LATIN CAPITAL LETTER U WITH DOT BELOW",
text! "1EE6          ; Changes_When_Lowercased # L&       LATIN CAPITAL LETTER U WITH HOOK ABOVE",
text! "1EE8          ; Changes_When_Lowercased # L&       LATIN CAPITAL LETTER U WITH HORN AND ACUTE",
text! "1EEA          ; Changes_When_Lowercased # L&       LATIN CAPITAL LETTER U WITH HORN AND GRAVE",
text! "1EEC          ; Changes_When_Lowercased # L&       LATIN CAPITAL LETTER U WITH HORN AND HOOK ABOVE",
text! "1EEE          ; Changes_When_Lowercased # L&       LATIN CAPITAL LETTER U WITH HORN AND TILDE",
text! "1EF0          ; Changes_When_Lowercased # L&       LATIN CAPITAL LETTER U WITH HORN AND DOT BELOW",
text! "1EF2          ; Changes_When_Lowercased # L&       LATIN CAPITAL LETTER Y WITH GRAVE",
text! "1EF4          ; Changes_When_Lowercased # L&       LATIN CAPITAL LETTER Y WITH DOT BELOW",
text! "1EF6          ; Changes_When_Lowercased # L&       LATIN CAPITAL LETTER Y WITH HOOK ABOVE",
text! "1EF8          ; Changes_When_Lowercased # L&       LATIN CAPITAL LETTER Y WITH TILDE",
text! "1EFA          ; Changes_When_Lowercased # L&       LATIN CAPITAL LETTER MIDDLE-WELSH LL",
text! "1EFC          ; Changes_When_Lowercased # L&       LATIN CAPITAL LETTER MIDDLE-WELSH V",
text! "1EFE          ; Changes_When_Lowercased # L&       LATIN CAPITAL LETTER Y WITH LOOP",
text! "1F08..1F0F    ; Changes_When_Lowercased # L&   [8] GREEK CAPITAL LETTER ALPHA WITH PSILI..GREEK CAPITAL LETTER ALPHA WITH DASIA AND PERISPOMENI",
text! "1F18..1F1D    ; Changes_When_Lowercased # L&   [6] GREEK CAPITAL LETTER EPSILON WITH PSILI..GREEK CAPITAL LETTER EPSILON WITH DASIA AND OXIA",
text! "1F28..1F2F    ; Changes_When_Lowercased # L&   [8] GREEK CAPITAL LETTER ETA WITH PSILI..GREEK CAPITAL LETTER ETA WITH DASIA AND PERISPOMENI",
text! "1F38..1F3F    ; Changes_When_Lowercased # L&   [8] GREEK CAPITAL LETTER IOTA WITH PSILI..GREEK CAPITAL LETTER IOTA WITH DASIA AND PERISPOMENI",
text! "1F48..1F4D    ; Changes_When_Lowercased # L&   [6] GREEK CAPITAL LETTER OMICRON WITH PSILI..GREEK CAPITAL LETTER OMICRON WITH DASIA AND OXIA",
text! "1F59          ; Changes_When_Lowercased # L&       GREEK CAPITAL LETTER UPSILON WITH DASIA",
text! "1F5B          ; Changes_When_Lowercased # L&       GREEK CAPITAL LETTER UPSILON WITH DASIA AND VARIA"]

/-- lines 3969-4032 -/
def derivedCore62 : List Nat := [
text! "1F5D          ; Changes_When_Lowercased # L&       GREEK CAPITAL LETTER UPSILON WITH DASIA AND OXIA",
text! "1F5F          ; Changes_When_Lowercased # L&       GREEK CAPITAL LETTER UPSILON WITH DASIA AND PERISPOMENI",
text! "1F68..1F6F    ; Changes_When_Lowercased # L&   [8] GREEK CAPITAL LETTER OMEGA WITH PSILI..GREEK CAPITAL LETTER OMEGA WITH DASIA AND PERISPOMENI",
text! "1F88..1F8F    ; Changes_When_Lowercased # L&   [8] GREEK CAPITAL LETTER ALPHA WITH PSILI AND PROSGEGRAMMENI..GREEK CAPITAL LETTER ALPHA WITH DASIA AND PERISPOMENI AND PROSGEGRAMMENI",
text! "1F98..1F9F    ; Changes_When_Lowercased # L&   [8] GREEK CAPITAL LETTER ETA WITH PSILI AND PROSGEGRAMMENI..GREEK CAPITAL LETTER ETA WITH DASIA AND PERISPOMENI AND PROSGEGRAMMENI",
text! "1FA8..1FAF    ; Changes_When_Lowercased # L&   [8] GREEK CAPITAL LETTER OMEGA WITH PSILI AND PROSGEGRAMMENI..GREEK CAPITAL LETTER OMEGA WITH DASIA AND PERISPOMENI AND PROSGEGRAMMENI",
text! "1FB8..1FBC    ; Changes_When_Lowercased # L&   [5] GREEK CAPITAL LETTER ALPHA WITH VRACHY..GREEK CAPITAL LETTER ALPHA WITH PROSGEGRAMMENI",
text! "1FC8..1FCC    ; Changes_When_Lowercased # L&   [5] GREEK CAPITAL LETTER EPSILON WITH VARIA..GREEK CAPITAL LETTER ETA WITH PROSGEGRAMMENI",
text! "1FD8..1FDB    ; Changes_When_Lowercased # L&   [4] GREEK CAPITAL LETTER IOTA WITH VRACHY..GREEK CAPITAL LETTER IOTA WITH OXIA",
text! "1FE8..1FEC    ; Changes_When_Lowercased # L&   [5] GREEK CAPITAL LETTER UPSILON WITH VRACHY..GREEK CAPITAL LETTER RHO WITH DASIA",
text! "1FF8..1FFC    ; Changes_When_Lowercased # L&   [5] GREEK CAPITAL LETTER OMICRON WITH VARIA..GREEK CAPITAL LETTER OMEGA WITH PROSGEGRAMMENI",
text! "2126          ; Changes_When_Lowercased # L&       OHM SIGN",
text! "212A..212B    ; Changes_When_Lowercased # L&   [2] KELVIN SIGN..ANGSTROM SIGN",
text! "2132          ; Changes_When_Lowercased # L&       TURNED CAPITAL F",
text! "2160..216F    ; Changes_When_Lowercased # Nl  [16] ROMAN NUMERAL ONE..ROMAN NUMERAL ONE THOUSAND",
text! "2183          ; Changes_When_Lowercased # L&       ROMAN NUMERAL REVERSED ONE HUNDRED",
text! "24B6..24CF    ; Changes_When_Lowercased # So  [26] CIRCLED LATIN CAPITAL LETTER A..CIRCLED LATIN CAPITAL LETTER Z",
text! "2C00..2C2F    ; Changes_When_Lowercased # L&  [48] GLAGOLITIC CAPITAL LETTER AZU..GLAGOLITIC CAPITAL LETTER CAUDATE CHRIVI",
text! "2C60          ; Changes_When_Lowercased # L&       LATIN CAPITAL LETTER L WITH DOUBLE BAR",
text! "2C62..2C64    ; Changes_When_Lowercased # L&   [3] LATIN CAPITAL LETTER L WITH MIDDLE TILDE..LATIN CAPITAL LETTER R WITH TAIL",
text! "2C67          ; Changes_When_Lowercased # L&       LATIN CAPITAL LETTER H WITH DESCENDER",
text! "2C69          ; Changes_When_Lowercased # L&       LATIN CAPITAL LETTER K WITH DESCENDER",
text! "2C6B          ; Changes_When_Lowercased # L&       LATIN CAPITAL LETTER Z WITH DESCENDER",
text! "2C6D..2C70    ; Changes_When_Lowercased # L&   [4] LATIN CAPITAL LETTER ALPHA..LATIN CAPITAL LETTER TURNED ALPHA",
text! "2C72          ; Changes_When_Lowercased # L&       LATIN CAPITAL LETTER W WITH HOOK",
text! "2C75          ; Changes_When_Lowercased # L&       LATIN CAPITAL LETTER HALF H",
text! "2C7E..2C80    ; Changes_When_Lowercased # L&   [3] LATIN CAPITAL LETTER S WITH SWASH TAIL..COPTIC CAPITAL LETTER ALFA",
text! "2C82          ; Changes_When_Lowercased # L&       COPTIC CAPITAL LETTER VIDA",
text! "2C84          ; Changes_When_Lowercased # L&       COPTIC CAPITAL LETTER GAMMA",
text! "2C86          ; Changes_When_Lowercased # L&       COPTIC CAPITAL LETTER DALDA",
text! "2C88          ; Changes_When_Lowercased # L&       COPTIC CAPITAL LETTER EIE",
text! "2C8A          ; Changes_When_Lowercased # L&       COPTIC CAPITAL LETTER SOU",
text! "2C8C          ; Changes_When_Lowercased # L&       COPTIC CAPITAL LETTER ZATA",
text! "2C8E          ; Changes_When_Lowercased # L&       COPTIC CAPITAL LETTER HATE",
text! "2C90          ; Changes_When_Lowercased # L&       COPTIC CAPITAL LETTER THETHE",
text! "2C92          ; Changes_When_Lowercased # L&       COPTIC CAPITAL LETTER IAUDA",
text! "2C94          ; Changes_When_Lowercased # L&       COPTIC CAPITAL LETTER KAPA",
text! "2C96          ; Changes_When_Lowercased # L&       COPTIC CAPITAL LETTER LAULA",
text! "2C98          ; Changes_When_Lowercased # L&       COPTIC CAPITAL LETTER MI",
text! "2C9A          ; Changes_When_Lowercased # L&       COPTIC CAPITAL LETTER NI",
text! "2C9C          ; Changes_When_Lowercased # L&       COPTIC CAPITAL LETTER KSI",
text! "2C9E          ; Changes_When_Lowercased # L&       COPTIC CAPITAL LETTER O",
text! "2CA0          ; Changes_When_Lowercased # L&       COPTIC CAPITAL LETTER PI",
text! "2CA2          ; Changes_When_Lowercased # L&       COPTIC CAPITAL LETTER RO",
text! "2CA4          ; Changes_When_Lowercased # L&       COPTIC CAPITAL LETTER SIMA",
text! "2CA6          ; Changes_When_Lowercased # L&       COPTIC CAPITAL LETTER TAU",
text! "2CA8          ; Changes_When_Lowercased # L&       COPTIC CAPITAL LETTER UA",
text! "2CAA          ; Changes_When_Lowercased # L&       COPTIC CAPITAL LETTER FI",
text! "2CAC          ; Changes_When_Lowercased # L&       COPTIC CAPITAL LETTER KHI",
text! "2CAE          ; Changes_When_Lowercased # L&       COPTIC CAPITAL LETTER PSI",
text! "2CB0          ; Changes_When_Lowercased # L&       COPTIC CAPITAL LETTER OOU",
text! "2CB2          ; Changes_When_Lowercased # L&       COPTIC CAPITAL LETTER DIALECT-P ALEF",
text! "2CB4          ; Changes_When_Lowercased # L&       COPTIC CAPITAL LETTER OLD COPTIC AIN",
text! "2CB6          ; Changes_When_Lowercased # L&       COPTIC CAPITAL LETTER CRYPTOGRAMMIC EIE",
text! "2CB8          ; Changes_When_Lowercased # L&       COPTIC CAPITAL LETTER DIALECT-P KAPA",
text! "2CBA          ; Changes_When_Lowercased # L&       COPTIC CAPITAL LETTER DIALECT-P NI",
text! "2CBC          ; Changes_When_Lowercased # L&       COPTIC CAPITAL LETTER CRYPTOGRAMMIC NI",
text! "2CBE          ; Changes_When_Lowercased # L&       COPTIC CAPITAL LETTER OLD COPTIC OOU",
text! "2CC0          ; Changes_When_Lowercased # L&       COPTIC CAPITAL LETTER SAMPI",
text! "2CC2          ; Changes_When_Lowercased # L&       COPTIC CAPITAL LETTER CROSSED SHEI",
text! "2CC4          ; Changes_When_Lowercased # L&       COPTIC CAPITAL LETTER OLD COPTIC SHEI",
text! "2CC6          ; Changes_When_Lowercased # L&       COPTIC CAPITAL LETTER OLD COPTIC ESH",
text! "2CC8          ; Changes_When_Lowercased # L&       COPTIC CAPITAL LETTER AKHMIMIC KHEI",
text! "2CCA          ; Changes_When_Lowercased # L&       COPTIC CAPITAL LETTER DIALECT-P HORI"]

/-- lines 4033-4096 -/
def derivedCore63 : List Nat := [
text! "2CCC          ; Changes_When_Lowercased # L&       COPTIC CAPITAL LETTER OLD COPTIC HORI",
text! "2CCE          ; Changes_When_Lowercased # L&       COPTIC CAPITAL LETTER OLD COPTIC HA",
text! "2CD0          ; Changes_When_Lowercased # L&       COPTIC CAPITAL LETTER L-SHAPED HA",
text! "2CD2          ; Changes_When_Lowercased # L&       COPTIC CAPITAL LETTER OLD COPTIC HEI",
text! "2CD4          ; Changes_When_Lowercased # L&       COPTIC CAPITAL LETTER OLD COPTIC HAT",
text! "2CD6          ; Changes_When_Lowercased # L&       COPTIC CAPITAL LETTER OLD COPTIC GANGIA",
text! "2CD8          ; Changes_When_Lowercased # L&       COPTIC CAPITAL LETTER OLD COPTIC DJA",
text! "2CDA          ; Changes_When_Lowercased # L&       COPTIC CAPITAL LETTER OLD COPTIC SHIMA",
text! "2CDC          ; Changes_When_Lowercased # L&       COPTIC CAPITAL LETTER OLD NUBIAN SHIMA",
text! "2CDE          ; Changes_When_Lowercased # L&       COPTIC CAPITAL LETTER OLD NUBIAN NGI",
text! "2CE0          ; Changes_When_Lowercased # L&       COPTIC CAPITAL LETTER OLD NUBIAN NYI",
text! "2CE2          ; Changes_When_Lowercased # L&       COPTIC CAPITAL LETTER OLD NUBIAN WAU",
text! "2CEB          ; Changes_When_Lowercased # L&       COPTIC CAPITAL LETTER CRYPTOGRAMMIC SHEI",
text! "2CED          ; Changes_When_Lowercased # L&       COPTIC CAPITAL LETTER CRYPTOGRAMMIC GANGIA",
text! "2CF2          ; Changes_When_Lowercased # L&       COPTIC CAPITAL LETTER BOHAIRIC KHEI",
text! "A640          ; Changes_When_Lowercased # L&       CYRILLIC CAPITAL LETTER ZEMLYA",
text! "A642          ; Changes_When_Lowercased # L&       CYRILLIC CAPITAL LETTER DZELO",
text! "A644          ; Changes_When_Lowercased # L&       CYRILLIC CAPITAL LETTER REVERSED DZE",
text! "A646          ; Changes_When_Lowercased # L&       CYRILLIC CAPITAL LETTER IOTA",
text! "A648          ; Changes_When_Lowercased # L&       CYRILLIC CAPITAL LETTER DJERV",
text! "A64A          ; Changes_When_Lowercased # L&       CYRILLIC CAPITAL LETTER MONOGRAPH UK",
text! "A64C          ; Changes_When_Lowercased # L&       CYRILLIC CAPITAL LETTER BROAD OMEGA",
text! "A64E          ; Changes_When_Lowercased # L&       CYRILLIC CAPITAL LETTER NEUTRAL YER",
text! "A650          ; Changes_When_Lowercased # L&       CYRILLIC CAPITAL LETTER YERU WITH BACK YER",
text! "A652          ; Changes_When_Lowercased # L&       CYRILLIC CAPITAL LETTER IOTIFIED YAT",
text! "A654          ; Changes_When_Lowercased # L&       CYRILLIC CAPITAL LETTER REVERSED YU",
text! "A656          ; Changes_When_Lowercased # L&       CYRILLIC CAPITAL LETTER IOTIFIED A",
text! "A658          ; Changes_When_Lowercased # L&       CYRILLIC CAPITAL LETTER CLOSED LITTLE YUS",
text! "A65A          ; Changes_When_Lowercased # L&       CYRILLIC CAPITAL LETTER BLENDED YUS",
text! "A65C          ; Changes_When_Lowercased # L&       CYRILLIC CAPITAL LETTER IOTIFIED CLOSED LITTLE YUS",
text! "A65E          ; Changes_When_Lowercased # L&       CYRILLIC CAPITAL LETTER YN",
text! "A660          ; Changes_When_Lowercased # L&       CYRILLIC CAPITAL LETTER REVERSED TSE",
text! "A662          ; Changes_When_Lowercased # L&       CYRILLIC CAPITAL LETTER SOFT DE",
text! "A664          ; Changes_When_Lowercased # L&       CYRILLIC CAPITAL LETTER SOFT EL",
text! "A666          ; Changes_When_Lowercased # L&       CYRILLIC CAPITAL LETTER SOFT EM",
text! "A668          ; Changes_When_Lowercased # L&       CYRILLIC CAPITAL LETTER MONOCULAR O",
text! "A66A          ; Changes_When_Lowercased # L&       CYRILLIC CAPITAL LETTER BINOCULAR O",
text! "A66C          ; Changes_When_Lowercased # L&       CYRILLIC CAPITAL LETTER DOUBLE MONOCULAR O",
text! "A680          ; Changes_When_Lowercased # L&       CYRILLIC CAPITAL LETTER DWE",
text! "A682          ; Changes_When_Lowercased # L&       CYRILLIC CAPITAL LETTER DZWE",
text! "A684          ; Changes_When_Lowercased # L&       CYRILLIC CAPITAL LETTER ZHWE",
text! "A686          ; Changes_When_Lowercased # L&       CYRILLIC CAPITAL LETTER CCHE",
text! "A688          ; Changes_When_Lowercased # L&       CYRILLIC CAPITAL LETTER DZZE",
text! "A68A          ; Changes_When_Lowercased # L&       CYRILLIC CAPITAL LETTER TE WITH MIDDLE HOOK",
text! "A68C          ; Changes_When_Lowercased # L&       CYRILLIC CAPITAL LETTER TWE",
text! "A68E          ; Changes_When_Lowercased # L&       CYRILLIC CAPITAL LETTER TSWE",
text! "A690          ; Changes_When_Lowercased # L&       CYRILLIC CAPITAL LETTER TSSE",
text! "A692          ; Changes_When_Lowercased # L&       CYRILLIC CAPITAL LETTER TCHE",
text! "A694          ; Changes_When_Lowercased # L&       CYRILLIC CAPITAL LETTER HWE",
text! "A696          ; Changes_When_Lowercased # L&       CYRILLIC CAPITAL LETTER SHWE",
text! "A698          ; Changes_When_Lowercased # L&       CYRILLIC CAPITAL LETTER DOUBLE O",
text! "A69A          ; Changes_When_Lowercased # L&       CYRILLIC CAPITAL LETTER CROSSED O",
text! "A722          ; Changes_When_Lowercased # L&       LATIN CAPITAL LETTER EGYPTOLOGICAL ALEF",
text! "A724          ; Changes_When_Lowercased # L&       LATIN CAPITAL LETTER EGYPTOLOGICAL AIN",
text! "A726          ; Changes_When_Lowercased # L&       LATIN CAPITAL LETTER HENG",
text! "A728          ; Changes_When_Lowercased # L&       LATIN CAPITAL LETTER TZ",
text! "A72A          ; Changes_When_Lowercased # L&       LATIN CAPITAL LETTER TRESILLO",
text! "A72C          ; Changes_When_Lowercased # L&       LATIN CAPITAL LETTER CUATRILLO",
text! "A72E          ; Changes_When_Lowercased # L&       LATIN CAPITAL LETTER CUATRILLO WITH COMMA",
text! "A732          ; Changes_When_Lowercased # L&       LATIN CAPITAL LETTER AA",
text! "A734          ; Changes_When_Lowercased # L&       LATIN CAPITAL LETTER AO",
text! "A736          ; Changes_When_Lowercased # L&       LATIN CAPITAL LETTER AU",
text! "A738          ; Changes_When_Lowercased # L&       LATIN CAPITAL LETTER AV",
text! "A73A          ; Changes_When_Lowercased # L&       LATIN CAPITAL LETTER AV WITH HORIZONTAL BAR"]

/-- lines 4097-4160 -/
def derivedCore64 : List Nat := [
text! "A73C          ; Changes_When_Lowercased # L&       LATIN CAPITAL LETTER AY",
text! "A73E          ; Changes_When_Lowercased # L&       LATIN CAPITAL LETTER REVERSED C WITH DOT",
text! "A740          ; Changes_When_Lowercased # L&       LATIN CAPITAL LETTER K WITH STROKE",
text! "A742          ; Changes_When_Lowercased # L&       LATIN CAPITAL LETTER K WITH DIAGONAL STROKE",
text! "A744          ; Changes_When_Lowercased # L&       LATIN CAPITAL LETTER K WITH STROKE AND DIAGONAL STROKE",
text! "A746          ; Changes_When_Lowercased # L&       LATIN CAPITAL LETTER BROKEN L",
text! "A748          ; Changes_When_Lowercased # L&       LATIN CAPITAL LETTER L WITH HIGH STROKE",
text! "A74A          ; Changes_When_Lowercased # L&       LATIN CAPITAL LETTER O WITH LONG STROKE OVERLAY",
text! "A74C          ; Changes_When_Lowercased # L&       LATIN CAPITAL LETTER O WITH LOOP",
text! "A74E          ; Changes_When_Lowercased # L&       LATIN CAPITAL LETTER OO",
text! "A750          ; Changes_When_Lowercased # L&       LATIN CAPITAL LETTER P WITH STROKE THROUGH DESCENDER",
text! "A752          ; Changes_When_Lowercased # L&       LATIN CAPITAL LETTER P WITH FLOURISH",
text! "A754          ; Changes_When_Lowercased # L&       LATIN CAPITAL LETTER P WITH SQUIRREL TAIL",
text! "A756          ; Changes_When_Lowercased # L&       LATIN CAPITAL LETTER Q WITH STROKE THROUGH DESCENDER",
text! "A758          ; Changes_When_Lowercased # L&       LATIN CAPITAL LETTER Q WITH DIAGONAL STROKE",
text! "A75A          ; Changes_When_Lowercased # L&       LATIN CAPITAL LETTER R ROTUNDA",
text! "A75C          ; Changes_When_Lowercased # L&       LATIN CAPITAL LETTER RUM ROTUNDA",
text! "A75E          ; Changes_When_Lowercased # L&       LATIN CAPITAL LETTER V WITH DIAGONAL STROKE",
text! "A760          ; Changes_When_Lowercased # L&       LATIN CAPITAL LETTER VY",
text! "A762          ; Changes_When_Lowercased # L&       LATIN CAPITAL LETTER VISIGOTHIC Z",
text! "A764          ; Changes_When_Lowercased # L&       LATIN CAPITAL LETTER THORN WITH STROKE",
text! "A766          ; Changes_When_Lowercased # L&       LATIN CAPITAL LETTER THORN WITH STROKE THROUGH DESCENDER",
text! "A768          ; Changes_When_Lowercased # L&       LATIN CAPITAL LETTER VEND",
text! "A76A          ; Changes_When_Lowercased # L&       LATIN CAPITAL LETTER ET",
text! "A76C          ; Changes_When_Lowercased # L&       LATIN CAPITAL LETTER IS",
text! "A76E          ; Changes_When_Lowercased # L&       LATIN CAPITAL LETTER CON",
text! "A779          ; Changes_When_Lowercased # L&       LATIN CAPITAL LETTER INSULAR D",
text! "A77B          ; Changes_When_Lowercased # L&       LATIN CAPITAL LETTER INSULAR F",
text! "A77D..A77E    ; Changes_When_Lowercased # L&   [2] LATIN CAPITAL LETTER INSULAR G..LATIN CAPITAL LETTER TURNED INSULAR G",
text! "A780          ; Changes_When_Lowercased # L&       LATIN CAPITAL LETTER TURNED L",
text! "A782          ; Changes_When_Lowercased # L&       LATIN CAPITAL LETTER INSULAR R",
text! "A784          ; Changes_When_Lowercased # L&       LATIN CAPITAL LETTER INSULAR S",
text! "A786          ; Changes_When_Lowercased # L&       LATIN CAPITAL LETTER INSULAR T",
text! "A78B          ; Changes_When_Lowercased # L&       LATIN CAPITAL LETTER SALTILLO",
text! "A78D          ; Changes_When_Lowercased # L&       LATIN CAPITAL LETTER TURNED H",
text! "A790          ; Changes_When_Lowercased # L&       LATIN CAPITAL LETTER N WITH DESCENDER",
text! "A792          ; Changes_When_Lowercased # L&       LATIN CAPITAL LETTER C WITH BAR",
text! "A796          ; Changes_When_Lowercased # L&       LATIN CAPITAL LETTER B WITH FLOURISH",
text! "A798          ; Changes_When_Lowercased # L&       LATIN CAPITAL LETTER F WITH STROKE",
text! "A79A          ; Changes_When_Lowercased # L&       LATIN CAPITAL LETTER VOLAPUK AE",
text! "A79C          ; Changes_When_Lowercased # L&       LATIN CAPITAL LETTER VOLAPUK OE",
text! "A79E          ; Changes_When_Lowercased # L&       LATIN CAPITAL LETTER VOLAPUK UE",
text! "A7A0          ; Changes_When_Lowercased # L&       LATIN CAPITAL LETTER G WITH OBLIQUE STROKE",
text! "A7A2          ; Changes_When_Lowercased # L&       LATIN CAPITAL LETTER K WITH OBLIQUE STROKE",
text! "A7A4          ; Changes_When_Lowercased # L&       LATIN CAPITAL LETTER N WITH OBLIQUE STROKE",
text! "A7A6          ; Changes_When_Lowercased # L&       LATIN CAPITAL LETTER R WITH OBLIQUE STROKE",
text! "A7A8          ; Changes_When_Lowercased # L&       LATIN CAPITAL LETTER S WITH OBLIQUE STROKE",
text! "A7AA..A7AE    ; Changes_When_Lowercased # L&   [5] LATIN CAPITAL LETTER H WITH HOOK..LATIN CAPITAL LETTER SMALL CAPITAL I",
text! "A7B0..A7B4    ; Changes_When_Lowercased # L&   [5] LATIN CAPITAL LETTER TURNED K..LATIN CAPITAL LETTER BETA",
text! "A7B6          ; Changes_When_Lowercased # L&       LATIN CAPITAL LETTER OMEGA",
text! "A7B8          ; Changes_When_Lowercased # L&       LATIN CAPITAL LETTER U WITH STROKE",
text! "A7BA          ; Changes_When_Lowercased # L&       LATIN CAPITAL LETTER GLOTTAL A",
text! "A7BC          ; Changes_When_Lowercased # L&       LATIN CAPITAL LETTER GLOTTAL I",
text! "A7BE          ; Changes_When_Lowercased # L&       LATIN CAPITAL LETTER GLOTTAL U",
text! "A7C0          ; Changes_When_Lowercased # L&       LATIN CAPITAL LETTER OLD POLISH O",
text! "A7C2          ; Changes_When_Lowercased # L&       LATIN CAPITAL LETTER ANGLICANA W",
text! "A7C4..A7C7    ; Changes_When_Lowercased # L&   [4] LATIN CAPITAL LETTER C WITH PALATAL HOOK..LATIN CAPITAL LETTER D WITH SHORT STROKE OVERLAY",
text! "A7C9          ; Changes_When_Lowercased # L&       LATIN CAPITAL LETTER S WITH SHORT STROKE OVERLAY",
text! "A7CB..A7CC    ; Changes_When_Lowercased # L&   [2] LATIN CAPITAL LETTER RAMS HORN..LATIN CAPITAL LETTER S WITH DIAGONAL STROKE",
text! "A7CE          ; Changes_When_Lowercased # L&       LATIN CAPITAL LETTER PHARYNGEAL VOICED FRICATIVE",
text! "A7D0          ; Changes_When_Lowercased # L&       LATIN CAPITAL LETTER CLOSED INSULAR G",
text! "A7D2          ; Changes_When_Lowercased # L&       LATIN CAPITAL LETTER DOUBLE THORN",
text! "A7D4          ; Changes_When_Lowercased # L&       LATIN CAPITAL LETTER DOUBLE WYNN",
text! "A7D6          ; Changes_When_Lowercased # L&       LATIN CAPITAL LETTER MIDDLE SCOTS S"]

/-- lines 4161-4224 -/
def derivedCore65 : List Nat := [
text! "A7D8          ; Changes_When_Lowercased # L&       LATIN CAPITAL LETTER SIGMOID S",
text! "A7DA          ; Changes_When_Lowercased # L&       LATIN CAPITAL LETTER LAMBDA",
text! "A7DC          ; Changes_When_Lowercased # L&       LATIN CAPITAL LETTER LAMBDA WITH STROKE",
text! "A7F5          ; Changes_When_Lowercased # L&       LATIN CAPITAL LETTER REVERSED HALF H",
text! "FF21..FF3A    ; Changes_When_Lowercased # L&  [26] FULLWIDTH LATIN CAPITAL LETTER A..FULLWIDTH LATIN CAPITAL LETTER Z",
text! "10400..10427  ; Changes_When_Lowercased # L&  [40] DESERET CAPITAL LETTER LONG I..DESERET CAPITAL LETTER EW",
text! "104B0..104D3  ; Changes_When_Lowercased # L&  [36] OSAGE CAPITAL LETTER A..OSAGE CAPITAL LETTER ZHA",
text! "10570..1057A  ; Changes_When_Lowercased # L&  [11] VITHKUQI CAPITAL LETTER A..VITHKUQI CAPITAL LETTER GA",
text! "1057C..1058A  ; Changes_When_Lowercased # L&  [15] VITHKUQI CAPITAL LETTER HA..VITHKUQI CAPITAL LETTER RE",
text! "1058C..10592  ; Changes_When_Lowercased # L&   [7] VITHKUQI CAPITAL LETTER SE..VITHKUQI CAPITAL LETTER XE",
text! "10594..10595  ; Changes_When_Lowercased # L&   [2] VITHKUQI CAPITAL LETTER Y..VITHKUQI CAPITAL LETTER ZE",
text! "10C80..10CB2  ; Changes_When_Lowercased # L&  [51] OLD HUNGARIAN CAPITAL LETTER A..OLD HUNGARIAN CAPITAL LETTER US",
text! "10D50..10D65  ; Changes_When_Lowercased # L&  [22] GARAY CAPITAL LETTER A..GARAY CAPITAL LETTER OLD NA",
text! "118A0..118BF  ; Changes_When_Lowercased # L&  [32] WARANG CITI CAPITAL LETTER NGAA..WARANG CITI CAPITAL LETTER VIYO",
text! "16E40..16E5F  ; Changes_When_Lowercased # L&  [32] MEDEFAIDRIN CAPITAL LETTER M..MEDEFAIDRIN CAPITAL LETTER Y",
text! "16EA0..16EB8  ; Changes_When_Lowercased # L&  [25] BERIA ERFE CAPITAL LETTER ARKAB..BERIA ERFE CAPITAL LETTER AY",
text! "1E900..1E921  ; Changes_When_Lowercased # L&  [34] ADLAM CAPITAL LETTER ALIF..ADLAM CAPITAL LETTER SHA",
text! "",
text! "# Total code points: 1488",
text! "",
text! "# ================================================",
text! "",
text! "# Derived Property:   Changes_When_Uppercased (CWU)",
text! "#  Characters whose normalized forms are not stable under a toUppercase mapping.",
text! "#  For more information, see the definition of \"isUppercase(X)\"",
text! "#  in the \"Conformance\" / \"Default Case Algorithms\" section of the core specification.",
text! "#  Changes_When_Uppercased(X) is true when toUppercase(toNFD(X)) != toNFD(X)",
text! "",
text! "0061..007A    ; Changes_When_Uppercased # L&  [26] LATIN SMALL LETTER A..LATIN SMALL LETTER Z",
text! "00B5          ; Changes_When_Uppercased # L&       MICRO SIGN",
text! "00DF..00F6    ; Changes_When_Uppercased # L&  [24] LATIN SMALL LETTER SHARP S..LATIN SMALL LETTER O WITH DIAERESIS",
text! "00F8..00FF    ; Changes_When_Uppercased # L&   [8] LATIN SMALL LETTER O WITH STROKE..LATIN SMALL LETTER Y WITH DIAERESIS",
text! "0101          ; Changes_When_Uppercased # L&       LATIN SMALL LETTER A WITH MACRON",
text! "0103          ; Changes_When_Uppercased # L&       LATIN SMALL LETTER A WITH BREVE",
text! "0105          ; Changes_When_Uppercased # L&       LATIN SMALL LETTER A WITH OGONEK",
text! "0107          ; Changes_When_Uppercased # L&       LATIN SMALL LETTER C WITH ACUTE",
text! "0109          ; Changes_When_Uppercased # L&       LATIN SMALL LETTER C WITH CIRCUMFLEX",
text! "010B          ; Changes_When_Uppercased # L&       LATIN SMALL LETTER C WITH DOT ABOVE",
text! "010D          ; Changes_When_Uppercased # L&       LATIN SMALL LETTER C WITH CARON",
text! "010F          ; Changes_When_Uppercased # L&       LATIN SMALL LETTER D WITH CARON",
text! "0111          ; Changes_When_Uppercased # L&       LATIN SMALL LETTER D WITH STROKE",
text! "0113          ; Changes_When_Uppercased # L&       LATIN SMALL LETTER E WITH MACRON",
text! "0115          ; Changes_When_Uppercased # L&       LATIN SMALL LETTER E WITH BREVE",
text! "0117          ; Changes_When_Uppercased # L&       LATIN SMALL LETTER E WITH DOT ABOVE",
text! "0119          ; Changes_When_Uppercased # L&       LATIN SMALL LETTER E WITH OGONEK",
text! "011B          ; Changes_When_Uppercased # L&       LATIN SMALL LETTER E WITH CARON",
text! "011D          ; Changes_When_Uppercased # L&       LATIN SMALL LETTER G WITH CIRCUMFLEX",
text! "011F          ; Changes_When_Uppercased # L&       LATIN SMALL LETTER G WITH BREVE",
text! "0121          ; Changes_When_Uppercased # L&       LATIN SMALL LETTER G WITH DOT ABOVE",
text! "0123          ; Changes_When_Uppercased # L&       LATIN SMALL LETTER G WITH CEDILLA",
text! "0125          ; Changes_When_Uppercased # L&       LATIN SMALL LETTER H WITH CIRCUMFLEX",
text! "0127          ; Changes_When_Uppercased # L&       LATIN SMALL LETTER H WITH STROKE",
text! "0129          ; Changes_When_Uppercased # L&       LATIN SMALL LETTER I WITH TILDE",
text! "012B          ; Changes_When_Uppercased # L&       LATIN SMALL LETTER I WITH MACRON",
text! "012D          ; Changes_When_Uppercased # L&       LATIN SMALL LETTER I WITH BREVE",
text! "012F          ; Changes_When_Uppercased # L&       LATIN SMALL LETTER I WITH OGONEK",
text! "0131          ; Changes_When_Uppercased # L&       LATIN SMALL LETTER DOTLESS I",
text! "0133          ; Changes_When_Uppercased # L&       LATIN SMALL LIGATURE IJ",
text! "0135          ; Changes_When_Uppercased # L&       LATIN SMALL LETTER J WITH CIRCUMFLEX",
text! "0137          ; Changes_When_Uppercased # L&       LATIN SMALL LETTER K WITH CEDILLA",
text! "013A          ; Changes_When_Uppercased # L&       LATIN SMALL LETTER L WITH ACUTE",
text! "013C          ; Changes_When_Uppercased # L&       LATIN SMALL LETTER L WITH CEDILLA",
text! "013E          ; Changes_When_Uppercased # L&       LATIN SMALL LETTER L WITH CARON",
text! "0140          ; Changes_When_Uppercased # L&       LATIN SMALL LETTER L WITH MIDDLE DOT"]

/-- lines 4225-4288 -/
def derivedCore66 : List Nat := [
text! "0142          ; Changes_When_Uppercased # L&       LATIN SMALL LETTER L WITH STROKE",
text! "0144          ; Changes_When_Uppercased # L&       LATIN SMALL LETTER N WITH ACUTE",
text! "0146          ; Changes_When_Uppercased # L&       LATIN SMALL LETTER N WITH CEDILLA",
text! "0148..0149    ; Changes_When_Uppercased # L&   [2] LATIN SMALL LETTER N WITH CARON..LATIN SMALL LETTER N PRECEDED BY APOSTROPHE",
text! "014B          ; Changes_When_Uppercased # L&       LATIN SMALL LETTER ENG",
text! "014D          ; Changes_When_Uppercased # L&       LATIN SMALL LETTER O WITH MACRON",
text! "014F          ; Changes_When_Uppercased # L&       LATIN SMALL LETTER O WITH BREVE",
text! "0151          ; Changes_When_Uppercased # L&       LATIN SMALL LETTER O WITH DOUBLE ACUTE",
text! "0153          ; Changes_When_Uppercased # L&       LATIN SMALL LIGATURE OE",
text! "0155          ; Changes_When_Uppercased # L&       LATIN SMALL LETTER R WITH ACUTE",
text! "0157          ; Changes_When_Uppercased # L&       LATIN SMALL LETTER R WITH CEDILLA",
text! "0159          ; Changes_When_Uppercased # L&       LATIN SMALL LETTER R WITH CARON",
text! "015B          ; Changes_When_Uppercased # L&       LATIN SMALL LETTER S WITH ACUTE",
text! "015D          ; Changes_When_Uppercased # L&       LATIN SMALL LETTER S WITH CIRCUMFLEX",
text! "015F          ; Changes_When_Uppercased # L&       LATIN SMALL LETTER S WITH CEDILLA",
text! "0161          ; Changes_When_Uppercased # L&       LATIN SMALL LETTER S WITH CARON",
text! "0163          ; Changes_When_Uppercased # L&       LATIN SMALL LETTER T WITH CEDILLA",
text! "0165          ; Changes_When_Uppercased # L&       LATIN SMALL LETTER T WITH CARON",
text! "0167          ; Changes_When_Uppercased # L&       LATIN SMALL LETTER T WITH STROKE",
text! "0169          ; Changes_When_Uppercased # L&       LATIN SMALL LETTER U WITH TILDE",
text! "016B          ; Changes_When_Uppercased # L&       LATIN SMALL LETTER U WITH MACRON",
text! "016D          ; Changes_When_Uppercased # L&       LATIN SMALL LETTER U WITH BREVE",
text! "016F          ; Changes_When_Uppercased # L&       LATIN SMALL LETTER U WITH RING ABOVE",
text! "0171          ; Changes_When_Uppercased # L&       LATIN SMALL LETTER U WITH DOUBLE ACUTE",
text! "0173          ; Changes_When_Uppercased # L&       LATIN SMALL LETTER U WITH OGONEK",
text! "0175          ; Changes_When_Uppercased # L&       LATIN SMALL LETTER W WITH CIRCUMFLEX",
text! "0177          ; Changes_When_Uppercased # L&       LATIN SMALL LETTER Y WITH CIRCUMFLEX",
text! "017A          ; Changes_When_Uppercased # L&       LATIN SMALL LETTER Z WITH ACUTE",
text! "017C          ; Changes_When_Uppercased # L&       LATIN SMALL LETTER Z WITH DOT ABOVE",
text! "017E..0180    ; Changes_When_Uppercased # L&   [3] LATIN SMALL LETTER Z WITH CARON..LATIN SMALL LETTER B WITH STROKE",
text! "0183          ; Changes_When_Uppercased # L&       LATIN SMALL LETTER B WITH TOPBAR",
text! "0185          ; Changes_When_Uppercased # L&       LATIN SMALL LETTER TONE SIX",
text! "0188          ; Changes_When_Uppercased # L&       LATIN SMALL LETTER C WITH HOOK",
text! "018C          ; Changes_When_Uppercased # L&       LATIN SMALL LETTER D WITH TOPBAR",
text! "0192          ; Changes_When_Uppercased # L&       LATIN SMALL LETTER F WITH HOOK",
text! "0195          ; Changes_When_Uppercased # L&       LATIN SMALL LETTER HV",
text! "0199..019B    ; Changes_When_Uppercased # L&   [3] LATIN SMALL LETTER K WITH HOOK..LATIN SMALL LETTER LAMBDA WITH STROKE",
text! "019E          ; Changes_When_Uppercased # L&       LATIN SMALL LETTER N WITH LONG RIGHT LEG",
text! "01A1          ; Changes_When_Uppercased # L&       LATIN SMALL LETTER O WITH HORN",
text! "01A3          ; Changes_When_Uppercased # L&       LATIN SMALL LETTER OI",
text! "01A5          ; Changes_When_Uppercased # L&       LATIN SMALL LETTER P WITH HOOK",
text! "01A8          ; Changes_When_Uppercased # L&       LATIN SMALL LETTER TONE TWO",
text! "01AD          ; Changes_When_Uppercased # L&       LATIN SMALL LETTER T WITH HOOK",
text! "01B0          ; Changes_When_Uppercased # L&       LATIN SMALL LETTER U WITH HORN",
text! "01B4          ; Changes_When_Uppercased # L&       LATIN SMALL LETTER Y WITH HOOK",
text! "01B6          ; Changes_When_Uppercased # L&       LATIN SMALL LETTER Z WITH STROKE",
text! "01B9          ; Changes_When_Uppercased # L&       LATIN SMALL LETTER EZH REVERSED",
text! "01BD          ; Changes_When_Uppercased # L&       LATIN SMALL LETTER TONE FIVE",
text! "01BF          ; Changes_When_Uppercased # L&       LATIN LETTER WYNN",
text! "01C5..01C6    ; Changes_When_Uppercased # L&   [2] LATIN CAPITAL LETTER D WITH SMALL LETTER Z WITH CARON..LATIN SMALL LETTER DZ WITH CARON",
text! "01C8..01C9    ; Changes_When_Uppercased # L&   [2] LATIN CAPITAL LETTER L WITH SMALL LETTER J..LATIN SMALL LETTER LJ",
text! "01CB..01CC    ; Changes_When_Uppercased # L&   [2] LATIN CAPITAL LETTER N WITH SMALL LETTER J..LATIN SMALL LETTER NJ",
text! "01CE          ; Changes_When_Uppercased # L&       LATIN SMALL LETTER A WITH CARON",
text! "01D0          ; Changes_When_Uppercased # L&       LATIN SMALL LETTER I WITH CARON",
text! "01D2          ; Changes_When_Uppercased # L&       LATIN SMALL LETTER O WITH CARON",
text! "01D4          ; Changes_When_Uppercased # L&       LATIN SMALL LETTER U WITH CARON",
text! "01D6          ; Changes_When_Uppercased # L&       LATIN SMALL LETTER U WITH DIAERESIS AND MACRON",
text! "01D8          ; Changes_When_Uppercased # L&       LATIN SMALL LETTER U WITH DIAERESIS AND ACUTE",
text! "01DA          ; Changes_When_Uppercased # L&       LATIN SMALL LETTER U WITH DIAERESIS AND CARON",
text! "01DC..01DD    ; Changes_When_Uppercased # L&   [2] LATIN SMALL LETTER U WITH DIAERESIS AND GRAVE..LATIN SMALL LETTER TURNED E",
text! "01DF          ; Changes_When_Uppercased # L&       LATIN SMALL LETTER A WITH DIAERESIS AND MACRON",
text! "01E1          ; Changes_When_Uppercased # L&       LATIN SMALL LETTER A WITH DOT ABOVE AND MACRON",
text! "01E3          ; Changes_When_Uppercased # L&       LATIN SMALL LETTER AE WITH MACRON",
text! "01E5          ; Changes_When_Uppercased # L&       LATIN SMALL LETTER G WITH STROKE"]

/-- lines 4289-4352 -/
def derivedCore67 : List Nat := [
text! "01E7          ; Changes_When_Uppercased # L&       LATIN SMALL LETTER G WITH CARON",
text! "01E9          ; Changes_When_Uppercased # L&       LATIN SMALL LETTER K WITH CARON",
text! "01EB          ; Changes_When_Uppercased # L&       LATIN SMALL LETTER O WITH OGONEK",
text! "01ED          ; Changes_When_Uppercased # L&       LATIN SMALL LETTER O WITH OGONEK AND MACRON",
text! "01EF..01F0    ; Changes_When_Uppercased # L&   [2] LATIN SMALL LETTER EZH WITH CARON..LATIN SMALL LETTER J WITH CARON",
text! "01F2..01F3    ; Changes_When_Uppercased # L&   [2] LATIN CAPITAL LETTER D WITH SMALL LETTER Z..LATIN SMALL LETTER DZ",
text! "01F5          ; Changes_When_Uppercased # L&       LATIN SMALL LETTER G WITH ACUTE",
text! "01F9          ; Changes_When_Uppercased # L&       LATIN SMALL LETTER N WITH GRAVE",
text! "01FB          ; Changes_When_Uppercased # L&       LATIN SMALL LETTER A WITH RING ABOVE AND ACUTE",
text! "01FD          ; Changes_When_Uppercased # L&       LATIN SMALL LETTER AE WITH ACUTE",
text! "01FF          ; Changes_When_Uppercased # L&       LATIN SMALL LETTER O WITH STROKE AND ACUTE",
text! "0201          ; Changes_When_Uppercased # L&       LATIN SMALL LETTER A WITH DOUBLE GRAVE",
text! "0203          ; Changes_When_Uppercased # L&       LATIN SMALL LETTER A WITH INVERTED BREVE",
text! "0205          ; Changes_When_Uppercased # L&       LATIN SMALL LETTER E WITH DOUBLE GRAVE",
text! "0207          ; Changes_When_Uppercased # L&       LATIN SMALL LETTER E WITH INVERTED BREVE",
text! "0209          ; Changes_When_Uppercased # L&       LATIN SMALL LETTER I WITH DOUBLE GRAVE",
text! "020B          ; Changes_When_Uppercased # L&       LATIN SMALL LETTER I WITH INVERTED BREVE",
text! "020D          ; Changes_When_Uppercased # L&       LATIN SMALL LETTER O WITH DOUBLE GRAVE",
text! "020F          ; Changes_When_Uppercased # L&       LATIN SMALL LETTER O WITH INVERTED BREVE",
text! "0211          ; Changes_When_Uppercased # L&       LATIN SMALL LETTER R WITH DOUBLE GRAVE",
text! "0213          ; Changes_When_Uppercased # L&       LATIN SMALL LETTER R WITH INVERTED BREVE",
text! "0215          ; Changes_When_Uppercased # L&       LATIN SMALL LETTER U WITH DOUBLE GRAVE",
text! "0217          ; Changes_When_Uppercased # L&       LATIN SMALL LETTER U WITH INVERTED BREVE",
text! "0219          ; Changes_When_Uppercased # L&       LATIN SMALL LETTER S WITH COMMA BELOW",
text! "021B          ; Changes_When_Uppercased # L&       LATIN SMALL LETTER T WITH COMMA BELOW",
text! "021D          ; Changes_When_Uppercased # L&       LATIN SMALL LETTER YOGH",
text! "021F          ; Changes_When_Uppercased # L&       LATIN SMALL LETTER H WITH CARON",
text! "0223          ; Changes_When_Uppercased # L&       LATIN SMALL LETTER OU",
text! "0225          ; Changes_When_Uppercased # L&       LATIN SMALL LETTER Z WITH HOOK",
text! "0227          ; Changes_When_Uppercased # L&       LATIN SMALL LETTER A WITH DOT ABOVE",
text! "0229          ; Changes_When_Uppercased # L&       LATIN SMALL LETTER E WITH CEDILLA",
text! "022B          ; Changes_When_Uppercased # L&       LATIN SMALL LETTER O WITH DIAERESIS AND MACRON",
text! "022D          ; Changes_When_Uppercased # L&       LATIN SMALL LETTER O WITH TILDE AND MACRON",
text! "022F          ; Changes_When_Uppercased # L&       LATIN SMALL LETTER O WITH DOT ABOVE",
text! "0231          ; Changes_When_Uppercased # L&       LATIN SMALL LETTER O WITH DOT ABOVE AND MACRON",
text! "0233          ; Changes_When_Uppercased # L&       LATIN SMALL LETTER Y WITH MACRON",
text! "023C          ; Changes_When_Uppercased # L&       LATIN SMALL LETTER C WITH STROKE",
text! "023F..0240    ; Changes_When_Uppercased # L&   [2] LATIN SMALL LETTER S WITH SWASH TAIL..LATIN SMALL LETTER Z WITH SWASH TAIL",
text! "0242          ; Changes_When_Uppercased # L&       LATIN SMALL LETTER GLOTTAL STOP",
text! "0247          ; Changes_When_Uppercased # L&       LATIN SMALL LETTER E WITH STROKE",
text! "0249          ; Changes_When_Uppercased # L&       LATIN SMALL LETTER J WITH STROKE",
text! "024B          ; Changes_When_Uppercased # L&       LATIN SMALL LETTER Q WITH HOOK TAIL",
text! "024D          ; Changes_When_Uppercased # L&       LATIN SMALL LETTER R WITH STROKE",
text! "024F..0254    ; Changes_When_Uppercased # L&   [6] LATIN SMALL LETTER Y WITH STROKE..LATIN SMALL LETTER OPEN O",
text! "0256..0257    ; Changes_When_Uppercased # L&   [2] LATIN SMALL LETTER D WITH TAIL..LATIN SMALL LETTER D WITH HOOK",
text! "0259          ; Changes_When_Uppercased # L&       LATIN SMALL LETTER SCHWA",
text! "025B..025C    ; Changes_When_Uppercased # L&   [2] LATIN SMALL LETTER OPEN E..LATIN SMALL LETTER REVERSED OPEN E",
text! "0260..0261    ; Changes_When_Uppercased # L&   [2] LATIN SMALL LETTER G WITH HOOK..LATIN SMALL LETTER SCRIPT G",
text! "0263..0266    ; Changes_When_Uppercased # L&   [4] LATIN SMALL LETTER GAMMA..LATIN SMALL LETTER H WITH HOOK",
text! "0268..026C    ; Changes_When_Uppercased # L&   [5] LATIN SMALL LETTER I WITH STROKE..LATIN SMALL LETTER L WITH BELT",
text! "026F          ; Changes_When_Uppercased # L&       LATIN SMALL LETTER TURNED M",
text! "0271..0272    ; Changes_When_Uppercased # L&   [2] LATIN SMALL LETTER M WITH HOOK..LATIN SMALL LETTER N WITH LEFT HOOK",
text! "0275          ; Changes_When_Uppercased # L&       LATIN SMALL LETTER BARRED O",
text! "027D          ; Changes_When_Uppercased # L&       LATIN SMALL LETTER R WITH TAIL",
text! "0280          ; Changes_When_Uppercased # L&       LATIN LETTER SMALL CAPITAL R",
text! "0282..0283    ; Changes_When_Uppercased # L&   [2] LATIN SMALL LETTER S WITH HOOK..LATIN SMALL LETTER ESH",
text! "0287..028C    ; Changes_When_Uppercased # L&   [6] LATIN SMALL LETTER TURNED T..LATIN SMALL LETTER TURNED V",
text! "0292          ; Changes_When_Uppercased # L&       LATIN SMALL LETTER EZH",
text! "029D..029E    ; Changes_When_Uppercased # L&   [2] LATIN SMALL LETTER J WITH CROSSED-TAIL..LATIN SMALL LETTER TURNED K",
text! "0345          ; Changes_When_Uppercased # Mn       COMBINING GREEK YPOGEGRAMMENI",
text! "0371          ; Changes_When_Uppercased # L&       GREEK SMALL LETTER HETA",
text! "0373          ; Changes_When_Uppercased # L&       GREEK SMALL LETTER ARCHAIC SAMPI",
text! "0377          ; Changes_When_Uppercased # L&       GREEK SMALL LETTER PAMPHYLIAN DIGAMMA",
text! "037B..037D    ; Changes_When_Uppercased # L&   [3] GREEK SMALL REVERSED LUNATE SIGMA SYMBOL..GREEK SMALL REVERSED DOTTED LUNATE SIGMA SYMBOL"]

/-- lines 4353-4416 -/
def derivedCore68 : List Nat := [
text! "0390          ; Changes_When_Uppercased # L&       GREEK SMALL LETTER IOTA WITH DIALYTIKA AND TONOS",
text! "03AC..03CE    ; Changes_When_Uppercased # L&  [35] GREEK SMALL LETTER ALPHA WITH TONOS..GREEK SMALL LETTER OMEGA WITH TONOS",
text! "03D0..03D1    ; Changes_When_Uppercased # L&   [2] GREEK BETA SYMBOL..GREEK THETA SYMBOL",
text! "03D5..03D7    ; Changes_When_Uppercased # L&   [3] GREEK PHI SYMBOL..GREEK KAI SYMBOL",
text! "03D9          ; Changes_When_Uppercased # L&       GREEK SMALL LETTER ARCHAIC KOPPA",
text! "03DB          ; Changes_When_Uppercased # L&       GREEK SMALL LETTER STIGMA",
text! "03DD          ; Changes_When_Uppercased # L&       GREEK SMALL LETTER DIGAMMA",
text! "03DF          ; Changes_When_Uppercased # L&       GREEK SMALL LETTER KOPPA",
text! "03E1          ; Changes_When_Uppercased # L&       GREEK SMALL LETTER SAMPI",
text! "03E3          ; Changes_When_Uppercased # L&       COPTIC SMALL LETTER SHEI",
text! "03E5          ; Changes_When_Uppercased # L&       COPTIC SMALL LETTER FEI",
text! "03E7          ; Changes_When_Uppercased # L&       COPTIC SMALL LETTER KHEI",
text! "03E9          ; Changes_When_Uppercased # L&       COPTIC SMALL LETTER HORI",
text! "03EB          ; Changes_When_Uppercased # L&       COPTIC SMALL LETTER GANGIA",
text! "03ED          ; Changes_When_Uppercased # L&       COPTIC SMALL LETTER SHIMA",
text! "03EF..03F3    ; Changes_When_Uppercased # L&   [5] COPTIC SMALL LETTER DEI..GREEK LETTER YOT",
text! "03F5          ; Changes_When_Uppercased # L&       GREEK LUNATE EPSILON SYMBOL",
text! "03F8          ; Changes_When_Uppercased # L&       GREEK SMALL LETTER SHO",
text! "03FB          ; Changes_When_Uppercased # L&       GREEK SMALL LETTER SAN",
text! "0430..045F    ; Changes_When_Uppercased # L&  [48] CYRILLIC SMALL LETTER A..CYRILLIC SMALL LETTER DZHE",
text! "0461          ; Changes_When_Uppercased # L&       CYRILLIC SMALL LETTER OMEGA",
text! "0463          ; Changes_When_Uppercased # L&       CYRILLIC SMALL LETTER YAT",
text! "0465          ; Changes_When_Uppercased # L&       CYRILLIC SMALL LETTER IOTIFIED E",
text! "0467          ; Changes_When_Uppercased # L&       CYRILLIC SMALL LETTER LITTLE YUS",
text! "0469          ; Changes_When_Uppercased # L&       CYRILLIC SMALL LETTER IOTIFIED LITTLE YUS",
text! "046B          ; Changes_When_Uppercased # L&       CYRILLIC SMALL LETTER BIG YUS",
text! "046D          ; Changes_When_Uppercased # L&       CYRILLIC SMALL LETTER IOTIFIED BIG YUS",
text! "046F          ; Changes_When_Uppercased # L&       CYRILLIC SMALL LETTER KSI",
text! "0471          ; Changes_When_Uppercased # L&       CYRILLIC SMALL LETTER PSI",
text! "0473          ; Changes_When_Uppercased # L&       CYRILLIC SMALL LETTER FITA",
text! "0475          ; Changes_When_Uppercased # L&       CYRILLIC SMALL LETTER IZHITSA",
text! "0477          ; Changes_When_Uppercased # L&       CYRILLIC SMALL LETTER IZHITSA WITH DOUBLE GRAVE ACCENT",
text! "0479          ; Changes_When_Uppercased # L&       CYRILLIC SMALL LETTER UK",
text! "047B          ; Changes_When_Uppercased # L&       CYRILLIC SMALL LETTER ROUND OMEGA",
text! "047D          ; Changes_When_Uppercased # L&       CYRILLIC SMALL LETTER OMEGA WITH TITLO",
text! "047F          ; Changes_When_Uppercased # L&       CYRILLIC SMALL LETTER OT",
text! "0481          ; Changes_When_Uppercased # L&       CYRILLIC SMALL LETTER KOPPA",
text! "048B          ; Changes_When_Uppercased # L&       CYRILLIC SMALL LETTER SHORT I WITH TAIL",
text! "048D          ; Changes_When_Uppercased # L&       CYRILLIC SMALL LETTER SEMISOFT SIGN",
text! "048F          ; Changes_When_Uppercased # L&       CYRILLIC SMALL LETTER ER WITH TICK",
text! "0491          ; Changes_When_Uppercased # L&       CYRILLIC SMALL LETTER GHE WITH UPTURN",
text! "0493          ; Changes_When_Uppercased # L&       CYRILLIC SMALL LETTER GHE WITH STROKE",
text! "0495          ; Changes_When_Uppercased # L&       CYRILLIC SMALL LETTER GHE WITH MIDDLE HOOK",
text! "0497          ; Changes_When_Uppercased # L&       CYRILLIC SMALL LETTER ZHE WITH DESCENDER",
text! "0499          ; Changes_When_Uppercased # L&       CYRILLIC SMALL LETTER ZE WITH DESCENDER",
text! "049B          ; Changes_When_Uppercased # L&       CYRILLIC SMALL LETTER KA WITH DESCENDER",
text! "049D          ; Changes_When_Uppercased # L&       CYRILLIC SMALL LETTER KA WITH VERTICAL STROKE",
text! "049F          ; Changes_When_Uppercased # L&       CYRILLIC SMALL LETTER KA WITH STROKE",
text! "04A1          ; Changes_When_Uppercased # L&       CYRILLIC SMALL LETTER BASHKIR KA",
text! "04A3          ; Changes_When_Uppercased # L&       CYRILLIC SMALL LETTER EN WITH DESCENDER",
text! "04A5          ; Changes_When_Uppercased # L&       CYRILLIC SMALL LIGATURE EN GHE",
text! "04A7          ; Changes_When_Uppercased # L&       CYRILLIC SMALL LETTER PE WITH MIDDLE HOOK",
text! "04A9          ; Changes_When_Uppercased # L&       CYRILLIC SMALL LETTER ABKHASIAN HA",
text! "04AB          ; Changes_When_Uppercased # L&       CYRILLIC SMALL LETTER ES WITH DESCENDER",
text! "04AD          ; Changes_When_Uppercased # L&       CYRILLIC SMALL LETTER TE WITH DESCENDER",
text! "04AF          ; Changes_When_Uppercased # L&       CYRILLIC SMALL LETTER STRAIGHT U",
text! "04B1          ; Changes_When_Uppercased # L&       CYRILLIC SMALL LETTER STRAIGHT U WITH STROKE",
text! "04B3          ; Changes_When_Uppercased # L&       CYRILLIC SMALL LETTER HA WITH DESCENDER",
text! "04B5          ; Changes_When_Uppercased # L&       CYRILLIC SMALL LIGATURE TE TSE",
text! "04B7          ; Changes_When_Uppercased # L&       CYRILLIC SMALL LETTER CHE WITH DESCENDER",
text! "04B9          ; Changes_When_Uppercased # L&       CYRILLIC SMALL LETTER CHE WITH VERTICAL STROKE",
text! "04BB          ; Changes_When_Uppercased # L&       CYRILLIC SMALL LETTER SHHA",
text! "04BD          ; Changes_When_Uppercased # L&       CYRILLIC SMALL LETTER ABKHASIAN CHE",
text! "04BF          ; Changes_When_Uppercased # L&       CYRILLIC SMALL LETTER ABKHASIAN CHE WITH DESCENDER"]

/-- lines 4417-4480 -/
def derivedCore69 : List Nat := [
text! "04C2          ; Changes_When_Uppercased # L&       CYRILLIC SMALL LETTER ZHE WITH BREVE",
text! "04C4          ; Changes_When_Uppercased # L&       CYRILLIC SMALL LETTER KA WITH HOOK",
text! "04C6          ; Changes_When_Uppercased # L&       CYRILLIC SMALL LETTER EL WITH TAIL",
text! "04C8          ; Changes_When_Uppercased # L&       CYRILLIC SMALL LETTER EN WITH HOOK",
text! "04CA          ; Changes_When_Uppercased # L&       CYRILLIC SMALL LETTER EN WITH TAIL",
text! "04CC          ; Changes_When_Uppercased # L&       CYRILLIC SMALL LETTER KHAKASSIAN CHE",
text! "04CE..04CF    ; Changes_When_Uppercased # L&   [2] CYRILLIC SMALL LETTER EM WITH TAIL..CYRILLIC SMALL LETTER PALOCHKA",
text! "04D1          ; Changes_When_Uppercased # L&       CYRILLIC SMALL LETTER A WITH BREVE",
text! "04D3          ; Changes_When_Uppercased # L&       CYRILLIC SMALL LETTER A WITH DIAERESIS",
text! "04D5          ; Changes_When_Uppercased # L&       CYRILLIC SMALL LIGATURE A IE",
text! "04D7          ; Changes_When_Uppercased # L&       CYRILLIC SMALL LETTER IE WITH BREVE",
text! "04D9          ; Changes_When_Uppercased # L&       CYRILLIC SMALL LETTER SCHWA",
text! "04DB          ; Changes_When_Uppercased # L&       CYRILLIC SMALL LETTER SCHWA WITH DIAERESIS",
text! "04DD          ; Changes_When_Uppercased # L&       CYRILLIC SMALL LETTER ZHE WITH DIAERESIS",
text! "04DF          ; Changes_When_Uppercased # L&       CYRILLIC SMALL LETTER ZE WITH DIAERESIS",
text! "04E1          ; Changes_When_Uppercased # L&       CYRILLIC SMALL LETTER ABKHASIAN DZE",
text! "04E3          ; Changes_When_Uppercased # L&       CYRILLIC SMALL LETTER I WITH MACRON",
text! "04E5          ; Changes_When_Uppercased # L&       CYRILLIC SMALL LETTER I WITH DIAERESIS",
text! "04E7          ; Changes_When_Uppercased # L&       CYRILLIC SMALL LETTER O WITH DIAERESIS",
text! "04E9          ; Changes_When_Uppercased # L&       CYRILLIC SMALL LETTER BARRED O",
text! "04EB          ; Changes_When_Uppercased # L&       CYRILLIC SMALL LETTER BARRED O WITH DIAERESIS",
text! "04ED          ; Changes_When_Uppercased # L&       CYRILLIC SMALL LETTER E WITH DIAERESIS",
text! "04EF          ; Changes_When_Uppercased # L&       CYRILLIC SMALL LETTER U WITH MACRON",
text! "04F1          ; Changes_When_Uppercased # L&       CYRILLIC SMALL LETTER U WITH DIAERESIS",
text! "04F3          ; Changes_When_Uppercased # L&       CYRILLIC SMALL LETTER U WITH DOUBLE ACUTE",
text! "04F5          ; Changes_When_Uppercased # L&       CYRILLIC SMALL LETTER CHE WITH DIAERESIS",
text! "04F7          ; Changes_When_Uppercased # L&       CYRILLIC SMALL LETTER GHE WITH DESCENDER",
text! "04F9          ; Changes_When_Uppercased # L&       CYRILLIC SMALL LETTER YERU WITH DIAERESIS",
text! "04FB          ; Changes_When_Uppercased # L&       CYRILLIC SMALL LETTER GHE WITH STROKE AND HOOK",
text! "04FD          ; Changes_When_Uppercased # L&       CYRILLIC SMALL LETTER HA WITH HOOK",
text! "04FF          ; Changes_When_Uppercased # L&       CYRILLIC SMALL LETTER HA WITH STROKE",
text! "0501          ; Changes_When_Uppercased # L&       CYRILLIC SMALL LETTER KOMI DE",
text! "0503          ; Changes_When_Uppercased # L&       CYRILLIC SMALL LETTER KOMI DJE",
text! "0505          ; Changes_When_Uppercased # L&       CYRILLIC SMALL LETTER KOMI ZJE",
text! "0507          ; Changes_When_Uppercased # L&       CYRILLIC SMALL LETTER KOMI DZJE",
text! "0509          ; Changes_When_Uppercased # L&       CYRILLIC SMALL LETTER KOMI LJE",
text! "050B          ; Changes_When_Uppercased # L&       CYRILLIC SMALL LETTER KOMI NJE",
text! "050D          ; Changes_When_Uppercased # L&       CYRILLIC SMALL LETTER KOMI SJE",
text! "050F          ; Changes_When_Uppercased # L&       CYRILLIC SMALL LETTER KOMI TJE",
text! "0511          ; Changes_When_Uppercased # L&       CYRILLIC SMALL LETTER REVERSED ZE",
text! "0513          ; Changes_When_Uppercased # L&       CYRILLIC SMALL LETTER EL WITH HOOK",
text! "0515          ; Changes_When_Uppercased # L&       CYRILLIC SMALL LETTER LHA",
text! "0517          ; Changes_When_Uppercased # L&       CYRILLIC SMALL LETTER RHA",
text! "0519          ; Changes_When_Uppercased # L&       CYRILLIC SMALL LETTER YAE",
text! "051B          ; Changes_When_Uppercased # L&       CYRILLIC SMALL LETTER QA",
text! "051D          ; Changes_When_Uppercased # L&       CYRILLIC SMALL LETTER WE",
text! "051F          ; Changes_When_Uppercased # L&       CYRILLIC SMALL LETTER ALEUT KA",
text! "0521          ; Changes_When_Uppercased # L&       CYRILLIC SMALL LETTER EL WITH MIDDLE HOOK",
text! "0523          ; Changes_When_Uppercased # L&       CYRILLIC SMALL LETTER EN WITH MIDDLE HOOK",
text! "0525          ; Changes_When_Uppercased # L&       CYRILLIC SMALL LETTER PE WITH DESCENDER",
text! "0527          ; Changes_When_Uppercased # L&       CYRILLIC SMALL LETTER SHHA WITH DESCENDER",
text! "0529          ; Changes_When_Uppercased # L&       CYRILLIC SMALL LETTER EN WITH LEFT HOOK",
text! "052B          ; Changes_When_Uppercased # L&       CYRILLIC SMALL LETTER DZZHE",
text! "052D          ; Changes_When_Uppercased # L&       CYRILLIC SMALL LETTER DCHE",
text! "052F          ; Changes_When_Uppercased # L&       CYRILLIC SMALL LETTER EL WITH DESCENDER",
text! "0561..0587    ; Changes_When_Uppercased # L&  [39] ARMENIAN SMALL LETTER AYB..ARMENIAN SMALL LIGATURE ECH YIWN",
text! "10D0..10FA    ; Changes_When_Uppercased # L&  [43] GEORGIAN LETTER AN..GEORGIAN LETTER AIN",
text! "10FD..10FF    ; Changes_When_Uppercased # L&   [3] GEORGIAN LETTER AEN..GEORGIAN LETTER LABIAL SIGN",
text! "13F8..13FD    ; Changes_When_Uppercased # L&   [6] CHEROKEE SMALL LETTER YE..CHEROKEE SMALL LETTER MV",
text! "1C80..1C88    ; Changes_When_Uppercased # L&   [9] CYRILLIC SMALL LETTER ROUNDED VE..CYRILLIC SMALL LETTER UNBLENDED UK",
text! "1C8A          ; Changes_When_Uppercased # L&       CYRILLIC SMALL LETTER TJE",
text! "1D79          ; Changes_When_Uppercased # L&       LATIN SMALL LETTER INSULAR G",
text! "1D7D          ; Changes_When_Uppercased # L&       LATIN SMALL LETTER P WITH STROKE",
text! "1D8E          ; Changes_When_Uppercased # L&       LATIN SMALL LETTER Z WITH PALATAL HOOK"]

/-- lines 4481-4544 -/
def derivedCore70 : List Nat := [
text! "1E01          ; Changes_When_Uppercased # L&       LATIN SMALL LETTER A WITH RING BELOW",
text! "1E03          ; Changes_When_Uppercased # L&       LATIN SMALL LETTER B WITH DOT ABOVE",
text! "1E05          ; Changes_When_Uppercased # L&       LATIN SMALL LETTER B WITH DOT BELOW",
text! "1E07          ; Changes_When_Uppercased # L&       LATIN SMALL LETTER B WITH LINE BELOW",
text! "1E09          ; Changes_When_Uppercased # L&       LATIN SMALL LETTER C WITH CEDILLA AND ACUTE",
text! "1E0B          ; Changes_When_Uppercased # L&       LATIN SMALL LETTER D WITH DOT ABOVE",
text! "1E0D          ; Changes_When_Uppercased # L&       LATIN SMALL LETTER D WITH DOT BELOW",
text! "1E0F          ; Changes_When_Uppercased # L&       LATIN SMALL LETTER D WITH LINE BELOW",
text! "1E11          ; Changes_When_Uppercased # L&       LATIN SMALL LETTER D WITH CEDILLA",
text! "1E13          ; Changes_When_Uppercased # L&       LATIN SMALL LETTER D WITH CIRCUMFLEX BELOW",
text! "1E15          ; Changes_When_Uppercased # L&       LATIN SMALL LETTER E WITH MACRON AND GRAVE",
text! "1E17          ; Changes_When_Uppercased # L&       LATIN SMALL LETTER E WITH MACRON AND ACUTE",
text! "1E19          ; Changes_When_Uppercased # L&       LATIN SMALL LETTER E WITH CIRCUMFLEX BELOW",
text! "1E1B          ; Changes_When_Uppercased # L&       LATIN SMALL LETTER E WITH TILDE BELOW",
text! "1E1D          ; Changes_When_Uppercased # L&       LATIN SMALL LETTER E WITH CEDILLA AND BREVE",
text! "1E1F          ; Changes_When_Uppercased # L&       LATIN SMALL LETTER F WITH DOT ABOVE",
text! "1E21          ; Changes_When_Uppercased # L&       LATIN SMALL LETTER G WITH MACRON",
text! "1E23          ; Changes_When_Uppercased # L&       LATIN SMALL LETTER H WITH DOT ABOVE",
text! "1E25          ; Changes_When_Uppercased # L&       LATIN SMALL LETTER H WITH DOT BELOW",
text! "1E27          ; Changes_When_Uppercased # L&       LATIN SMALL LETTER H WITH DIAERESIS",
text! "1E29          ; Changes_When_Uppercased # L&       LATIN SMALL LETTER H WITH CEDILLA",
text! "1E2B          ; Changes_When_Uppercased # L&       LATIN SMALL LETTER H WITH BREVE BELOW",
text! "1E2D          ; Changes_When_Uppercased # L&       LATIN SMALL LETTER I WITH TILDE BELOW",
text! "1E2F          ; Changes_When_Uppercased # L&       LATIN SMALL LETTER I WITH DIAERESIS AND ACUTE",
text! "1E31          ; Changes_When_Uppercased # L&       LATIN SMALL LETTER K WITH ACUTE",
text! "1E33          ; Changes_When_Uppercased # L&       LATIN SMALL LETTER K WITH DOT BELOW",
text! "1E35          ; Changes_When_Uppercased # L&       LATIN SMALL LETTER K WITH LINE BELOW",
text! "1E37          ; Changes_When_Uppercased # L&       LATIN SMALL LETTER L WITH DOT BELOW",
text! "1E39          ; Changes_When_Uppercased # L&       LATIN SMALL LETTER L WITH DOT BELOW AND MACRON",
text! "1E3B          ; Changes_When_Uppercased # L&       LATIN SMALL LETTER L WITH LINE BELOW",
text! "1E3D          ; Changes_When_Uppercased # L&       LATIN SMALL LETTER L WITH CIRCUMFLEX BELOW",
text! "1E3F          ; Changes_When_Uppercased # L&       LATIN SMALL LETTER M WITH ACUTE",
text! "1E41          ; Changes_When_Uppercased # L&       LATIN SMALL LETTER M WITH DOT ABOVE",
text! "1E43          ; Changes_When_Uppercased # L&       LATIN SMALL LETTER M WITH DOT BELOW",
text! "1E45          ; Changes_When_Uppercased # L&       LATIN SMALL LETTER N WITH DOT ABOVE",
text! "1E47          ; Changes_When_Uppercased # L&       LATIN SMALL LETTER N WITH DOT BELOW",
text! "1E49          ; Changes_When_Uppercased # L&       LATIN SMALL LETTER N WITH LINE BELOW",
text! "1E4B          ; Changes_When_Uppercased # L&       LATIN SMALL LETTER N WITH CIRCUMFLEX BELOW",
text! "1E4D          ; Changes_When_Uppercased # L&       LATIN SMALL LETTER O WITH TILDE AND ACUTE",
text! "1E4F          ; Changes_When_Uppercased # L&       LATIN SMALL LETTER O WITH TILDE AND DIAERESIS",
text! "1E51          ; Changes_When_Uppercased # L&       LATIN SMALL LETTER O WITH MACRON AND GRAVE",
text! "1E53          ; Changes_When_Uppercased # L&       LATIN SMALL LETTER O WITH MACRON AND ACUTE",
text! "1E55          ; Changes_When_Uppercased # L&       LATIN SMALL LETTER P WITH ACUTE",
text! "1E57          ; Changes_When_Uppercased # L&       LATIN SMALL LETTER P WITH DOT ABOVE",
text! "1E59          ; Changes_When_Uppercased # L&       LATIN SMALL LETTER R WITH DOT ABOVE",
text! "1E5B          ; Changes_When_Uppercased # L&       LATIN SMALL LETTER R WITH DOT BELOW",
text! "1E5D          ; Changes_When_Uppercased # L&       LATIN SMALL LETTER R WITH DOT BELOW AND MACRON",
text! "1E5F          ; Changes_When_Uppercased # L&       LATIN SMALL LETTER R WITH LINE BELOW",
text! "1E61          ; Changes_When_Uppercased # L&       LATIN SMALL LETTER S WITH DOT ABOVE",
text! "1E63          ; Changes_When_Uppercased # L&       LATIN SMALL LETTER S WITH DOT BELOW",
text! "1E65          ; Changes_When_Uppercased # L&       LATIN SMALL LETTER S WITH ACUTE AND DOT ABOVE",
text! "1E67          ; Changes_When_Uppercased # L&       LATIN SMALL LETTER S WITH CARON AND DOT ABOVE",
text! "1E69          ; Changes_When_Uppercased # L&       LATIN SMALL LETTER S WITH DOT BELOW AND DOT ABOVE",
text! "1E6B          ; Changes_When_Uppercased # L&       LATIN SMALL LETTER T WITH DOT ABOVE",
text! "1E6D          ; Changes_When_Uppercased # L&       LATIN SMALL LETTER T WITH DOT BELOW",
text! "1E6F          ; Changes_When_Uppercased # L&       LATIN SMALL LETTER T WITH LINE BELOW",
text! "1E71          ; Changes_When_Uppercased # L&       LATIN SMALL LETTER T WITH CIRCUMFLEX BELOW",
text! "1E73          ; Changes_When_Uppercased # L&       LATIN SMALL LETTER U WITH DIAERESIS BELOW",
text! "1E75          ; Changes_When_Uppercased # L&       LATIN SMALL LETTER U WITH TILDE BELOW",
text! "1E77          ; Changes_When_Uppercased # L&       LATIN SMALL LETTER U WITH CIRCUMFLEX BELOW",
text! "1E79          ; Changes_When_Uppercased # L&       LATIN SMALL LETTER U WITH TILDE AND ACUTE",
text! "1E7B          ; Changes_When_Uppercased # L&       LATIN SMALL LETTER U WITH MACRON AND DIAERESIS",
text! "1E7D          ; Changes_When_Uppercased # L&       LATIN SMALL LETTER V WITH TILDE",
text! "1E7F          ; Changes_When_Uppercased # L&       LATIN SMALL LETTER V WITH DOT BELOW"]

/-- lines 4545-4608 -/
def derivedCore71 : List Nat := [
text! "1E81          ; Changes_When_Uppercased # L&       LATIN SMALL LETTER W WITH GRAVE",
text! "1E83          ; Changes_When_Uppercased # L&       LATIN SMALL LETTER W WITH ACUTE",
text! "1E85          ; Changes_When_Uppercased # L&       LATIN SMALL LETTER W WITH DIAERESIS",
text! "1E87          ; Changes_When_Uppercased # L&       LATIN SMALL LETTER W WITH DOT ABOVE",
text! "1E89          ; Changes_When_Uppercased # L&       LATIN SMALL LETTER W WITH DOT BELOW",
text! "1E8B          ; Changes_When_Uppercased # L&       LATIN SMALL LETTER X WITH DOT ABOVE",
text! "1E8D          ; Changes_When_Uppercased # L&       LATIN SMALL LETTER X WITH DIAERESIS",
text! "1E8F          ; Changes_When_Uppercased # L&       LATIN SMALL LETTER Y WITH DOT ABOVE",
text! "1E91          ; Changes_When_Uppercased # L&       LATIN SMALL LETTER Z WITH CIRCUMFLEX",
text! "1E93          ; Changes_When_Uppercased # L&       LATIN SMALL LETTER Z WITH DOT BELOW",
text! "1E95..1E9B    ; Changes_When_Uppercased # L&   [7] LATIN SMALL LETTER Z WITH LINE BELOW..LATIN SMALL LETTER LONG S WITH DOT ABOVE",
text! "1EA1          ; Changes_When_Uppercased # L&       LATIN SMALL LETTER A WITH DOT BELOW",
text! "1EA3          ; Changes_When_Uppercased # L&       LATIN SMALL LETTER A WITH HOOK ABOVE",
text! "1EA5          ; Changes_When_Uppercased # L&       LATIN SMALL LETTER A WITH CIRCUMFLEX AND ACUTE",
text! "1EA7          ; Changes_When_Uppercased # L&       LATIN SMALL LETTER A WITH CIRCUMFLEX AND GRAVE",
text! "1EA9          ; Changes_When_Uppercased # L&       LATIN SMALL LETTER A WITH CIRCUMFLEX AND HOOK ABOVE",
text! "1EAB          ; Changes_When_Uppercased # L&       LATIN SMALL LETTER A WITH CIRCUMFLEX AND TILDE",
text! "1EAD          ; Changes_When_Uppercased # L&       LATIN SMALL LETTER A WITH CIRCUMFLEX AND DOT BELOW",
text! "1EAF          ; Changes_When_Uppercased # L&       LATIN SMALL LETTER A WITH BREVE AND ACUTE",
text! "1EB1          ; Changes_When_Uppercased # L&       LATIN SMALL LETTER A WITH BREVE AND GRAVE",
text! "1EB3          ; Changes_When_Uppercased # L&       LATIN SMALL LETTER A WITH BREVE AND HOOK ABOVE",
text! "1EB5          ; Changes_When_Uppercased # L&       LATIN SMALL LETTER A WITH BREVE AND TILDE",
text! "1EB7          ; Changes_When_Uppercased # L&       LATIN SMALL LETTER A WITH BREVE AND DOT BELOW",
text! "1EB9          ; Changes_When_Uppercased # L&       LATIN SMALL LETTER E WITH DOT BELOW",
text! "1EBB          ; Changes_When_Uppercased # L&       LATIN SMALL LETTER E WITH HOOK ABOVE",
text! "1EBD          ; Changes_When_Uppercased # L&       LATIN SMALL LETTER E WITH TILDE",
text! "1EBF          ; Changes_When_Uppercased # L&       LATIN SMALL LETTER E WITH CIRCUMFLEX AND ACUTE",
text! "1EC1          ; Changes_When_Uppercased # L&       LATIN SMALL LETTER E WITH CIRCUMFLEX AND GRAVE",
text! "1EC3          ; Changes_When_Uppercased # L&       LATIN SMALL LETTER E WITH CIRCUMFLEX AND HOOK ABOVE",
text! "1EC5          ; Changes_When_Uppercased # L&       LATIN SMALL LETTER E WITH CIRCUMFLEX AND TILDE",
text! "1EC7          ; Changes_When_Uppercased # L&       LATIN SMALL LETTER E WITH CIRCUMFLEX AND DOT BELOW",
text! "1EC9          ; Changes_When_Uppercased # L&       LATIN SMALL LETTER I WITH HOOK ABOVE",
text! "1ECB          ; Changes_When_Uppercased # L&       LATIN SMALL LETTER I WITH DOT BELOW",
text! "1ECD          ; Changes_When_Uppercased # L&       LATIN SMALL LETTER O WITH DOT BELOW",
text! "1ECF          ; Changes_When_Uppercased # L&       LATIN SMALL LETTER O WITH HOOK ABOVE",
text! "1ED1          ; Changes_When_Uppercased # L&       LATIN SMALL LETTER O WITH CIRCUMFLEX AND ACUTE",
text! "1ED3          ; Changes_When_Uppercased # L&       LATIN SMALL LETTER O WITH CIRCUMFLEX AND GRAVE",
text! "1ED5          ; Changes_When_Uppercased # L&       LATIN SMALL LETTER O WITH CIRCUMFLEX AND HOOK ABOVE",
text! "1ED7          ; Changes_When_Uppercased # L&       LATIN SMALL LETTER O WITH CIRCUMFLEX AND TILDE",
text! "1ED9          ; Changes_When_Uppercased # L&       LATIN SMALL LETTER O WITH CIRCUMFLEX AND DOT BELOW",
text! "1EDB          ; Changes_When_Uppercased # L&       LATIN SMALL LETTER O WITH HORN AND ACUTE",
text! "1EDD          ; Changes_When_Uppercased # L&       LATIN SMALL LETTER O WITH HORN AND GRAVE",
text! "1EDF          ; Changes_When_Uppercased # L&       LATIN SMALL LETTER O WITH HORN AND HOOK ABOVE",
text! "1EE1          ; Changes_When_Uppercased # L&       LATIN SMALL LETTER O WITH HORN AND TILDE",
text! "1EE3          ; Changes_When_Uppercased # L&       LATIN SMALL LETTER O WITH HORN AND DOT BELOW",
text! "1EE5          ; Changes_When_Uppercased # L&       LATIN SMALL LETTER U WITH DOT BELOW",
text! "1EE7          ; Changes_When_Uppercased # L&       LATIN SMALL LETTER U WITH HOOK ABOVE",
text! "1EE9          ; Changes_When_Uppercased # L&       LATIN SMALL LETTER U WITH HORN AND ACUTE",
text! "1EEB          ; Changes_When_Uppercased # L&       LATIN SMALL LETTER U WITH HORN AND GRAVE",
text! "1EED          ; Changes_When_Uppercased # L&       LATIN SMALL LETTER U WITH HORN AND HOOK ABOVE",
text! "1EEF          ; Changes_When_Uppercased # L&       LATIN SMALL LETTER U WITH HORN AND TILDE",
text! "1EF1          ; Changes_When_Uppercased # L&       LATIN SMALL LETTER U WITH HORN AND DOT BELOW",
text! "1EF3          ; Changes_When_Uppercased # L&       LATIN SMALL LETTER Y WITH GRAVE",
text! "1EF5          ; Changes_When_Uppercased # L&       LATIN SMALL LETTER Y WITH DOT BELOW",
text! "1EF7          ; Changes_When_Uppercased # L&       LATIN SMALL LETTER Y WITH HOOK ABOVE",
text! "1EF9          ; Changes_When_Uppercased # L&       LATIN SMALL LETTER Y WITH TILDE",
text! "1EFB          ; Changes_When_Uppercased # L&       LATIN SMALL LETTER MIDDLE-WELSH LL",
text! "1EFD          ; Changes_When_Uppercased # L&       LATIN SMALL LETTER MIDDLE-WELSH V",
text! "1EFF..1F07    ; Changes_When_Uppercased # L&   [9] LATIN SMALL LETTER Y WITH LOOP..GREEK SMALL LETTER ALPHA WITH DASIA AND PERISPOMENI",
text! "1F10..1F15    ; Changes_When_Uppercased # L&   [6] GREEK SMALL LETTER EPSILON WITH PSILI..GREEK SMALL LETTER EPSILON WITH DASIA AND OXIA",
text! "1F20..1F27    ; Changes_When_Uppercased # L&   [8] GREEK SMALL LETTER ETA WITH PSILI..GREEK SMALL LETTER ETA WITH DASIA AND PERISPOMENI",
text! "1F30..1F37    ; Changes_When_Uppercased # L&   [8] GREEK SMALL LETTER IOTA WITH PSILI..GREEK SMALL LETTER IOTA WITH DASIA AND PERISPOMENI",
text! "1F40..1F45    ; Changes_When_Uppercased # L&   [6] GREEK SMALL LETTER OMICRON WITH PSILI..GREEK SMALL LETTER OMICRON WITH DASIA AND OXIA",
text! "1F50..1F57    ; Changes_When_Uppercased # L&   [8] GREEK SMALL LETTER UPSILON WITH PSILI..GREEK SMALL LETTER UPSILON WITH DASIA AND PERISPOMENI"]

/-- lines 4609-4672 -/
def derivedCore72 : List Nat := [
text! "1F60..1F67    ; Changes_When_Uppercased # L&   [8] GREEK SMALL LETTER OMEGA WITH PSILI..GREEK SMALL LETTER OMEGA WITH DASIA AND PERISPOMENI",
text! "1F70..1F7D    ; Changes_When_Uppercased # L&  [14] GREEK SMALL LETTER ALPHA WITH VARIA..GREEK SMALL LETTER OMEGA WITH OXIA",
text! "1F80..1FB4    ; Changes_When_Uppercased # L&  [53] GREEK SMALL LETTER ALPHA WITH PSILI AND YPOGEGRAMMENI..GREEK SMALL LETTER ALPHA WITH OXIA AND YPOGEGRAMMENI",
text! "1FB6..1FB7    ; Changes_When_Uppercased # L&   [2] GREEK SMALL LETTER ALPHA WITH PERISPOMENI..GREEK SMALL LETTER ALPHA WITH PERISPOMENI AND YPOGEGRAMMENI",
text! "1FBC          ; Changes_When_Uppercased # L&       GREEK CAPITAL LETTER ALPHA WITH PROSGEGRAMMENI",
text! "1FBE          ; Changes_When_Uppercased # L&       GREEK PROSGEGRAMMENI",
text! "1FC2..1FC4    ; Changes_When_Uppercased # L&   [3] GREEK SMALL LETTER ETA WITH VARIA AND YPOGEGRAMMENI..GREEK SMALL LETTER ETA WITH OXIA AND YPOGEGRAMMENI",
text! "1FC6..1FC7    ; Changes_When_Uppercased # L&   [2] GREEK SMALL LETTER ETA WITH PERISPOMENI..GREEK SMALL LETTER ETA WITH PERISPOMENI AND YPOGEGRAMMENI",
text! "1FCC          ; Changes_When_Uppercased # L&       GREEK CAPITAL LETTER ETA WITH PROSGEGRAMMENI",
text! "1FD0..1FD3    ; Changes_When_Uppercased # L&   [4] GREEK SMALL LETTER IOTA WITH VRACHY..GREEK SMALL LETTER IOTA WITH DIALYTIKA AND OXIA",
text! "1FD6..1FD7    ; Changes_When_Uppercased # L&   [2] GREEK SMALL LETTER IOTA WITH PERISPOMENI..GREEK SMALL LETTER IOTA WITH DIALYTIKA AND PERISPOMENI",
text! "1FE0..1FE7    ; Changes_When_Uppercased # L&   [8] GREEK SMALL LETTER UPSILON WITH VRACHY..GREEK SMALL LETTER UPSILON WITH DIALYTIKA AND PERISPOMENI",
text! "1FF2..1FF4    ; Changes_When_Uppercased # L&   [3] GREEK SMALL LETTER OMEGA WITH VARIA AND YPOGEGRAMMENI..GREEK SMALL LETTER OMEGA WITH OXIA AND YPOGEGRAMMENI",
text! "1FF6..1FF7    ; Changes_When_Uppercased # L&   [2] GREEK SMALL LETTER OMEGA WITH PERISPOMENI..GREEK SMALL LETTER OMEGA WITH PERISPOMENI AND YPOGEGRAMMENI",
text! "1FFC          ; Changes_When_Uppercased # L&       GREEK CAPITAL LETTER OMEGA WITH PROSGEGRAMMENI",
text! "214E          ; Changes_When_Uppercased # L&       TURNED SMALL F",
text! "2170..217F    ; Changes_When_Uppercased # Nl  [16] SMALL ROMAN NUMERAL ONE..SMALL ROMAN NUMERAL ONE THOUSAND",
text! "2184          ; Changes_When_Uppercased # L&       LATIN SMALL LETTER REVERSED C",
text! "24D0..24E9    ; Changes_When_Uppercased # So  [26] CIRCLED LATIN SMALL LETTER A..CIRCLED LATIN SMALL LETTER Z",
text! "2C30..2C5F    ; Changes_When_Uppercased # L&  [48] GLAGOLITIC SMALL LETTER AZU..GLAGOLITIC SMALL LETTER CAUDATE CHRIVI",
text! "2C61          ; Changes_When_Uppercased # L&       LATIN SMALL LETTER L WITH DOUBLE BAR",
text! "2C65..2C66    ; Changes_When_Uppercased # L&   [2] LATIN SMALL LETTER A WITH STROKE..LATIN SMALL LETTER T WITH DIAGONAL STROKE",
text! "2C68          ; Changes_When_Uppercased # L&       LATIN SMALL LETTER H WITH DESCENDER",
text! "2C6A          ; Changes_When_Uppercased # L&       LATIN SMALL LETTER K WITH DESCENDER",
text! "2C6C          ; Changes_When_Uppercased # L&       LATIN SMALL LETTER Z WITH DESCENDER",
text! "2C73          ; Changes_When_Uppercased # L&       LATIN SMALL LETTER W WITH HOOK",
text! "2C76          ; Changes_When_Uppercased # L&       LATIN SMALL LETTER HALF H",
text! "2C81          ; Changes_When_Uppercased # L&       COPTIC SMALL LETTER ALFA",
text! "2C83          ; Changes_When_Uppercased # L&       COPTIC SMALL LETTER VIDA",
text! "2C85          ; Changes_When_Uppercased # L&       COPTIC SMALL LETTER GAMMA",
text! "2C87          ; Changes_When_Uppercased # L&       COPTIC SMALL LETTER DALDA",
text! "2C89          ; Changes_When_Uppercased # L&       COPTIC SMALL LETTER EIE",
text! "2C8B          ; Changes_When_Uppercased # L&       COPTIC SMALL LETTER SOU",
text! "2C8D          ; Changes_When_Uppercased # L&       COPTIC SMALL LETTER ZATA",
text! "2C8F          ; Changes_When_Uppercased # L&       COPTIC SMALL LETTER HATE",
text! "2C91          ; Changes_When_Uppercased # L&       COPTIC SMALL LETTER THETHE",
text! "2C93          ; Changes_When_Uppercased # L&       COPTIC SMALL LETTER IAUDA",
text! "2C95          ; Changes_When_Uppercased # L&       COPTIC SMALL LETTER KAPA",
text! "2C97          ; Changes_When_Uppercased # L&       COPTIC SMALL LETTER LAULA",
text! "2C99          ; Changes_When_Uppercased # L&       COPTIC SMALL LETTER MI",
text! "2C9B          ; Changes_When_Uppercased # L&       COPTIC SMALL LETTER NI",
text! "2C9D          ; Changes_When_Uppercased # L&       COPTIC SMALL LETTER KSI",
text! "2C9F          ; Changes_When_Uppercased # L&       COPTIC SMALL LETTER O",
text! "2CA1          ; Changes_When_Uppercased # L&       COPTIC SMALL LETTER PI",
text! "2CA3          ; Changes_When_Uppercased # L&       COPTIC SMALL LETTER RO",
text! "2CA5          ; Changes_When_Uppercased # L&       COPTIC SMALL LETTER SIMA",
text! "2CA7          ; Changes_When_Uppercased # L&       COPTIC SMALL LETTER TAU",
text! "2CA9          ; Changes_When_Uppercased # L&       COPTIC SMALL LETTER UA",
text! "2CAB          ; Changes_When_Uppercased # L&       COPTIC SMALL LETTER FI",
text! "2CAD          ; Changes_When_Uppercased # L&       COPTIC SMALL LETTER KHI",
text! "2CAF          ; Changes_When_Uppercased # L&       COPTIC SMALL LETTER PSI",
text! "2CB1          ; Changes_When_Uppercased # L&       COPTIC SMALL LETTER OOU",
text! "2CB3          ; Changes_When_Uppercased # L&       COPTIC SMALL LETTER DIALECT-P ALEF",
text! "2CB5          ; Changes_When_Uppercased # L&       COPTIC SMALL LETTER OLD COPTIC AIN",
text! "2CB7          ; Changes_When_Uppercased # L&       COPTIC SMALL LETTER CRYPTOGRAMMIC EIE",
text! "2CB9          ; Changes_When_Uppercased # L&       COPTIC SMALL LETTER DIALECT-P KAPA",
text! "2CBB          ; Changes_When_Uppercased # L&       COPTIC SMALL LETTER DIALECT-P NI",
text! "2CBD          ; Changes_When_Uppercased # L&       COPTIC SMALL LETTER CRYPTOGRAMMIC NI",
text! "2CBF          ; Changes_When_Uppercased # L&       COPTIC SMALL LETTER OLD COPTIC OOU",
text! "2CC1          ; Changes_When_Uppercased # L&       COPTIC SMALL LETTER SAMPI",
text! "2CC3          ; Changes_When_Uppercased # L&       COPTIC SMALL LETTER CROSSED SHEI",
text! "2CC5          ; Changes_When_Uppercased # L&       COPTIC SMALL LETTER OLD COPTIC SHEI",
text! "2CC7          ; Changes_When_Uppercased # L&       COPTIC SMALL LETTER OLD COPTIC ESH",
text! "2CC9          ; Changes_When_Uppercased # L&       COPTIC SMALL LETTER AKHMIMIC KHEI"]

/-- lines 4673-4736 -/
def derivedCore73 : List Nat := [
text! "2CCB          ; Changes_When_Uppercased # L&       COPTIC SMALL LETTER DIALECT-P HORI",
text! "2CCD          ; Changes_When_Uppercased # L&       COPTIC SMALL LETTER OLD COPTIC HORI",
text! "2CCF          ; Changes_When_Uppercased # L&       COPTIC SMALL LETTER OLD COPTIC HA",
text! "2CD1          ; Changes_When_Uppercased # L&       COPTIC SMALL LETTER L-SHAPED HA",
text! "2CD3          ; Changes_When_Uppercased # L&       COPTIC SMALL LETTER OLD COPTIC HEI",
text! "2CD5          ; Changes_When_Uppercased # L&       COPTIC SMALL LETTER OLD COPTIC HAT",
text! "2CD7          ; Changes_When_Uppercased # L&       COPTIC SMALL LETTER OLD COPTIC GANGIA",
text! "2CD9          ; Changes_When_Uppercased # L&       COPTIC SMALL LETTER OLD COPTIC DJA",
text! "2CDB          ; Changes_When_Uppercased # L&       COPTIC SMALL LETTER OLD COPTIC SHIMA",
text! "2CDD          ; Changes_When_Uppercased # L&       COPTIC SMALL LETTER OLD NUBIAN SHIMA",
text! "2CDF          ; Changes_When_Uppercased # L&       COPTIC SMALL LETTER OLD NUBIAN NGI",
text! "2CE1          ; Changes_When_Uppercased # L&       COPTIC SMALL LETTER OLD NUBIAN NYI",
text! "2CE3          ; Changes_When_Uppercased # L&       COPTIC SMALL LETTER OLD NUBIAN WAU",
text! "2CEC          ; Changes_When_Uppercased # L&       COPTIC SMALL LETTER CRYPTOGRAMMIC SHEI",
text! "2CEE          ; Changes_When_Uppercased # L&       COPTIC SMALL LETTER CRYPTOGRAMMIC GANGIA",
text! "2CF3          ; Changes_When_Uppercased # L&       COPTIC SMALL LETTER BOHAIRIC KHEI",
text! "2D00..2D25    ; Changes_When_Uppercased # L&  [38] GEORGIAN SMALL LETTER AN..GEORGIAN SMALL LETTER HOE",
text! "2D27          ; Changes_When_Uppercased # L&       GEORGIAN SMALL LETTER YN",
text! "2D2D          ; Changes_When_Uppercased # L&       GEORGIAN SMALL LETTER AEN",
text! "A641          ; Changes_When_Uppercased # L&       CYRILLIC SMALL LETTER ZEMLYA",
text! "A643          ; Changes_When_Uppercased # L&       CYRILLIC SMALL LETTER DZELO",
text! "A645          ; Changes_When_Uppercased # L&       CYRILLIC SMALL LETTER REVERSED DZE",
text! "A647          ; Changes_When_Uppercased # L&       CYRILLIC SMALL LETTER IOTA",
text! "A649          ; Changes_When_Uppercased # L&       CYRILLIC SMALL LETTER DJERV",
text! "A64B          ; Changes_When_Uppercased # L&       CYRILLIC SMALL LETTER MONOGRAPH UK",
text! "A64D          ; Changes_When_Uppercased # L&       CYRILLIC SMALL LETTER BROAD OMEGA",
text! "A64F          ; Changes_When_Uppercased # L&       CYRILLIC SMALL LETTER NEUTRAL YER",
text! "A651          ; Changes_When_Uppercased # L&       CYRILLIC SMALL LETTER YERU WITH BACK YER",
text! "A653          ; Changes_When_Uppercased # L&       CYRILLIC SMALL LETTER IOTIFIED YAT",
text! "A655          ; Changes_When_Uppercased # L&       CYRILLIC SMALL LETTER REVERSED YU",
text! "A657          ; Changes_When_Uppercased # L&       CYRILLIC SMALL LETTER IOTIFIED A",
text! "A659          ; Changes_When_Uppercased # L&       CYRILLIC SMALL LETTER CLOSED LITTLE YUS",
text! "A65B          ; Changes_When_Uppercased # L&       CYRILLIC SMALL LETTER BLENDED YUS",
text! "A65D          ; Changes_When_Uppercased # L&       CYRILLIC SMALL LETTER IOTIFIED CLOSED LITTLE YUS",
text! "A65F          ; Changes_When_Uppercased # L&       CYRILLIC SMALL LETTER YN",
text! "A661          ; Changes_When_Uppercased # L&       CYRILLIC SMALL LETTER REVERSED TSE",
text! "A663          ; Changes_When_Uppercased # L&       CYRILLIC SMALL LETTER SOFT DE",
text! "A665          ; Changes_When_Uppercased # L&       CYRILLIC SMALL LETTER SOFT EL",
text! "A667          ; Changes_When_Uppercased # L&       CYRILLIC SMALL LETTER SOFT EM",
text! "A669          ; Changes_When_Uppercased # L&       CYRILLIC SMALL LETTER MONOCULAR O",
text! "A66B          ; Changes_When_Uppercased # L&       CYRILLIC SMALL LETTER BINOCULAR O",
text! "A66D          ; Changes_When_Uppercased # L&       CYRILLIC SMALL LETTER DOUBLE MONOCULAR O",
text! "A681          ; Changes_When_Uppercased # L&       CYRILLIC SMALL LETTER DWE",
text! "A683          ; Changes_When_Uppercased # L&       CYRILLIC SMALL LETTER DZWE",
text! "A685          ; Changes_When_Uppercased # L&       CYRILLIC SMALL LETTER ZHWE",
text! "A687          ; Changes_When_Uppercased # L&       CYRILLIC SMALL LETTER CCHE",
text! "A689          ; Changes_When_Uppercased # L&       CYRILLIC SMALL LETTER DZZE",
text! "A68B          ; Changes_When_Uppercased # L&       CYRILLIC SMALL LETTER TE WITH MIDDLE HOOK",
text! "A68D          ; Changes_When_Uppercased # L&       CYRILLIC SMALL LETTER TWE",
text! "A68F          ; Changes_When_Uppercased # L&       CYRILLIC SMALL LETTER TSWE",
text! "A691          ; Changes_When_Uppercased # L&       CYRILLIC SMALL LETTER TSSE",
text! "A693          ; Changes_When_Uppercased # L&       CYRILLIC SMALL LETTER TCHE",
text! "A695          ; Changes_When_Uppercased # L&       CYRILLIC SMALL LETTER HWE",
text! "A697          ; Changes_When_Uppercased # L&       CYRILLIC SMALL LETTER SHWE",
text! "A699          ; Changes_When_Uppercased # L&       CYRILLIC SMALL LETTER DOUBLE O",
text! "A69B          ; Changes_When_Uppercased # L&       CYRILLIC SMALL LETTER CROSSED O",
text! "A723          ; Changes_When_Uppercased # L&       LATIN SMALL LETTER EGYPTOLOGICAL ALEF",
text! "A725          ; Changes_When_Uppercased # L&       LATIN SMALL LETTER EGYPTOLOGICAL AIN",
text! "A727          ; Changes_When_Uppercased # L&       LATIN SMALL LETTER HENG",
text! "A729          ; Changes_When_Uppercased # L&       LATIN SMALL LETTER TZ",
text! "A72B          ; Changes_When_Uppercased # L&       LATIN SMALL LETTER TRESILLO",
text! "A72D          ; Changes_When_Uppercased # L&       LATIN SMALL LETTER CUATRILLO",
text! "A72F          ; Changes_When_Uppercased # L&       LATIN SMALL LETTER CUATRILLO WITH COMMA",
text! "A733          ; Changes_When_Uppercased # L&       LATIN SMALL LETTER AA"]

/-- lines 4737-4800 -/
def derivedCore74 : List Nat := [
text! "A735          ; Changes_When_Uppercased # L&       LATIN SMALL LETTER AO",
text! "A737          ; Changes_When_Uppercased # L&       LATIN SMALL LETTER AU",
text! "A739          ; Changes_When_Uppercased # L&       LATIN SMALL LETTER AV",
text! "A73B          ; Changes_When_Uppercased # L&       LATIN SMALL LETTER AV WITH HORIZONTAL BAR",
text! "A73D          ; Changes_When_Uppercased # L&       LATIN SMALL LETTER AY",
text! "A73F          ; Changes_When_Uppercased # L&       LATIN SMALL LETTER REVERSED C WITH DOT",
text! "A741          ; Changes_When_Uppercased # L&       LATIN SMALL LETTER K WITH STROKE",
text! "A743          ; Changes_When_Uppercased # L&       LATIN SMALL LETTER K WITH DIAGONAL STROKE",
text! "A745          ; Changes_When_Uppercased # L&       LATIN SMALL LETTER K WITH STROKE AND DIAGONAL STROKE",
text! "A747          ; Changes_When_Uppercased # L&       LATIN SMALL LETTER BROKEN L",
text! "A749          ; Changes_When_Uppercased # L&       LATIN SMALL LETTER L WITH HIGH STROKE",
text! "A74B          ; Changes_When_Uppercased # L&       LATIN SMALL LETTER O WITH LONG STROKE OVERLAY",
text! "A74D          ; Changes_When_Uppercased # L&       LATIN SMALL LETTER O WITH LOOP",
text! "A74F          ; Changes_When_Uppercased # L&       LATIN SMALL LETTER OO",
text! "A751          ; Changes_When_Uppercased # L&       LATIN SMALL LETTER P WITH STROKE THROUGH DESCENDER",
text! "A753          ; Changes_When_Uppercased # L&       LATIN SMALL LETTER P WITH FLOURISH",
text! "A755          ; Changes_When_Uppercased # L&       LATIN SMALL LETTER P WITH SQUIRREL TAIL",
text! "A757          ; Changes_When_Uppercased # L&       LATIN SMALL LETTER Q WITH STROKE THROUGH DESCENDER",
text! "A759          ; Changes_When_Uppercased # L&       LATIN SMALL LETTER Q WITH DIAGONAL STROKE",
text! "A75B          ; Changes_When_Uppercased # L&       LATIN SMALL LETTER R ROTUNDA",
text! "A75D          ; Changes_When_Uppercased # L&       LATIN SMALL LETTER RUM ROTUNDA",
text! "A75F          ; Changes_When_Uppercased # L&       LATIN SMALL LETTER V WITH DIAGONAL STROKE",
text! "A761          ; Changes_When_Uppercased # L&       LATIN SMALL LETTER VY",
text! "A763          ; Changes_When_Uppercased # L&       LATIN SMALL LETTER VISIGOTHIC Z",
text! "A765          ; Changes_When_Uppercased # L&       LATIN SMALL LETTER THORN WITH STROKE",
text! "A767          ; Changes_When_Uppercased # L&       LATIN SMALL LETTER THORN WITH STROKE THROUGH DESCENDER",
text! "A769          ; Changes_When_Uppercased # L&       LATIN SMALL LETTER VEND",
text! "A76B          ; Changes_When_Uppercased # L&       LATIN SMALL LETTER ET",
text! "A76D          ; Changes_When_Uppercased # L&       LATIN SMALL LETTER IS",
text! "A76F          ; Changes_When_Uppercased # L&       LATIN SMALL LETTER CON",
text! "A77A          ; Changes_When_Uppercased # L&       LATIN SMALL LETTER INSULAR D",
text! "A77C          ; Changes_When_Uppercased # L&       LATIN SMALL LETTER INSULAR F",
text! "A77F          ; Changes_When_Uppercased # L&       LATIN SMALL LETTER TURNED INSULAR G",
text! "A781          ; Changes_When_Uppercased # L&       LATIN SMALL LETTER TURNED L",
text! "A783          ; Changes_When_Uppercased # L&       LATIN SMALL LETTER INSULAR R",
text! "A785          ; Changes_When_Uppercased # L&       LATIN SMALL LETTER INSULAR S",
text! "A787          ; Changes_When_Uppercased # L&       LATIN SMALL LETTER INSULAR T",
text! "A78C          ; Changes_When_Uppercased # L&       LATIN SMALL LETTER SALTILLO",
text! "A791          ; Changes_When_Uppercased # L&       LATIN SMALL LETTER N WITH DESCENDER",
text! "A793..A794    ; Changes_When_Uppercased # L&   [2] LATIN SMALL LETTER C WITH BAR..LATIN SMALL LETTER C WITH PALATAL HOOK",
text! "A797          ; Changes_When_Uppercased # L&       LATIN SMALL LETTER B WITH FLOURISH",
text! "A799          ; Changes_When_Uppercased # L&       LATIN SMALL LETTER F WITH STROKE",
text! "A79B          ; Changes_When_Uppercased # L&       LATIN SMALL LETTER VOLAPUK AE",
text! "A79D          ; Changes_When_Uppercased # L&       LATIN SMALL LETTER VOLAPUK OE",
text! "A79F          ; Changes_When_Uppercased # L&       LATIN SMALL LETTER VOLAPUK UE",
text! "A7A1          ; Changes_When_Uppercased # L&       LATIN SMALL LETTER G WITH OBLIQUE STROKE",
text! "A7A3          ; Changes_When_Uppercased # L&       LATIN SMALL LETTER K WITH OBLIQUE STROKE",
text! "A7A5          ; Changes_When_Uppercased # L&       LATIN SMALL LETTER N WITH OBLIQUE STROKE",
text! "A7A7          ; Changes_When_Uppercased # L&       LATIN SMALL LETTER R WITH OBLIQUE STROKE",
text! "A7A9          ; Changes_When_Uppercased # L&       LATIN SMALL LETTER S WITH OBLIQUE STROKE",
text! "A7B5          ; Changes_When_Uppercased # L&       LATIN SMALL LETTER BETA",
text! "A7B7          ; Changes_When_Uppercased # L&       LATIN SMALL LETTER OMEGA",
text! "A7B9          ; Changes_When_Uppercased # L&       LATIN SMALL LETTER U WITH STROKE",
text! "A7BB          ; Changes_When_Uppercased # L&       LATIN SMALL LETTER GLOTTAL A",
text! "A7BD          ; Changes_When_Uppercased # L&       LATIN SMALL LETTER GLOTTAL I",
text! "A7BF          ; Changes_When_Uppercased # L&       LATIN SMALL LETTER GLOTTAL U",
text! "A7C1          ; Changes_When_Uppercased # L&       LATIN SMALL LETTER OLD POLISH O",
text! "A7C3          ; Changes_When_Uppercased # L&       LATIN SMALL LETTER ANGLICANA W",
text! "A7C8          ; Changes_When_Uppercased # L&       LATIN SMALL LETTER D WITH SHORT STROKE OVERLAY",
text! "A7CA          ; Changes_When_Uppercased # L&       LATIN SMALL LETTER S WITH SHORT STROKE OVERLAY",
text! "A7CD          ; Changes_When_Uppercased # L&       LATIN SMALL LETTER S WITH DIAGONAL STROKE",
text! "A7CF          ; Changes_When_Uppercased # L&       LATIN SMALL LETTER PHARYNGEAL VOICED FRICATIVE",
text! "A7D1          ; Changes_When_Uppercased # L&       LATIN SMALL LETTER CLOSED INSULAR G",
text! "A7D3          ; Changes_When_Uppercased # L&       LATIN SMALL LETTER DOUBLE THORN"]

/-- lines 4801-4864 -/
def derivedCore75 : List Nat := [
text! "A7D5          ; Changes_When_Uppercased # L&       LATIN SMALL LETTER DOUBLE WYNN",
text! "A7D7          ; Changes_When_Uppercased # L&       LATIN SMALL LETTER MIDDLE SCOTS S",
text! "A7D9          ; Changes_When_Uppercased # L&       LATIN SMALL LETTER SIGMOID S",
text! "A7DB          ; Changes_When_Uppercased # L&       LATIN SMALL LETTER LAMBDA",
text! "A7F6          ; Changes_When_Uppercased # L&       LATIN SMALL LETTER REVERSED HALF H",
text! "AB53          ; Changes_When_Uppercased # L&       LATIN SMALL LETTER CHI",
text! "AB70..ABBF    ; Changes_When_Uppercased # L&  [80] CHEROKEE SMALL LETTER A..CHEROKEE SMALL LETTER YA",
text! "FB00..FB06    ; Changes_When_Uppercased # L&   [7] LATIN SMALL LIGATURE FF..LATIN SMALL LIGATURE ST",
text! "FB13..FB17    ; Changes_When_Uppercased # L&   [5] ARMENIAN SMALL LIGATURE MEN NOW..ARMENIAN SMALL LIGATURE MEN XEH",
text! "FF41..FF5A    ; Changes_When_Uppercased # L&  [26] FULLWIDTH LATIN SMALL LETTER A..FULLWIDTH LATIN SMALL LETTER Z",
text! "10428..1044F  ; Changes_When_Uppercased # L&  [40] DESERET SMALL LETTER LONG I..DESERET SMALL LETTER EW",
text! "104D8..104FB  ; Changes_When_Uppercased # L&  [36] OSAGE SMALL LETTER A..OSAGE SMALL LETTER ZHA",
text! "10597..105A1  ; Changes_When_Uppercased # L&  [11] VITHKUQI SMALL LETTER A..VITHKUQI SMALL LETTER GA",
text! "105A3..105B1  ; Changes_When_Uppercased # L&  [15] VITHKUQI SMALL LETTER HA..VITHKUQI SMALL LETTER RE",
text! "105B3..105B9  ; Changes_When_Uppercased # L&   [7] VITHKUQI SMALL LETTER SE..VITHKUQI SMALL LETTER XE",
text! "105BB..105BC  ; Changes_When_Uppercased # L&   [2] VITHKUQI SMALL LETTER Y..VITHKUQI SMALL LETTER ZE",
text! "10CC0..10CF2  ; Changes_When_Uppercased # L&  [51] OLD HUNGARIAN SMALL LETTER A..OLD HUNGARIAN SMALL LETTER US",
text! "10D70..10D85  ; Changes_When_Uppercased # L&  [22] GARAY SMALL LETTER A..GARAY SMALL LETTER OLD NA",
text! "118C0..118DF  ; Changes_When_Uppercased # L&  [32] WARANG CITI SMALL LETTER NGAA..WARANG CITI SMALL LETTER VIYO",
text! "16E60..16E7F  ; Changes_When_Uppercased # L&  [32] MEDEFAIDRIN SMALL LETTER M..MEDEFAIDRIN SMALL LETTER Y",
text! "16EBB..16ED3  ; Changes_When_Uppercased # L&  [25] BERIA ERFE SMALL LETTER ARKAB..BERIA ERFE SMALL LETTER AY",
text! "1E922..1E943  ; Changes_When_Uppercased # L&  [34] ADLAM SMALL LETTER ALIF..ADLAM SMALL LETTER SHA",
text! "",
text! "# Total code points: 1580",
text! "",
text! "# ================================================",
text! "",
text! "# Derived Property:   Changes_When_Titlecased (CWT)",
text! "#  Characters whose normalized forms are not stable under a toTitlecase mapping.",
text! "#  For more information, see the definition of \"isTitlecase(X)\"",
text! "#  in the \"Conformance\" / \"Default Case Algorithms\" section of the core specification.",
text! "#  Changes_When_Titlecased(X) is true when toTitlecase(toNFD(X)) != toNFD(X)",
text! "",
text! "0061..007A    ; Changes_When_Titlecased # L&  [26] LATIN SMALL LETTER A..LATIN SMALL LETTER Z",
text! "00B5          ; Changes_When_Titlecased # L&       MICRO SIGN",
text! "00DF..00F6    ; Changes_When_Titlecased # L&  [24] LATIN SMALL LETTER SHARP S..LATIN SMALL LETTER O WITH DIAERESIS",
text! "00F8..00FF    ; Changes_When_Titlecased # L&   [8] LATIN SMALL LETTER O WITH STROKE..LATIN SMALL LETTER Y WITH DIAERESIS",
text! "0101          ; Changes_When_Titlecased # L&       LATIN SMALL LETTER A WITH MACRON",
text! "0103          ; Changes_When_Titlecased # L&       LATIN SMALL LETTER A WITH BREVE",
text! "0105          ; Changes_When_Titlecased # L&       LATIN SMALL LETTER A WITH OGONEK",
text! "0107          ; Changes_When_Titlecased # L&       LATIN SMALL LETTER C WITH ACUTE",
text! "0109          ; Changes_When_Titlecased # L&       LATIN SMALL LETTER C WITH CIRCUMFLEX",
text! "010B          ; Changes_When_Titlecased # L&       LATIN SMALL LETTER C WITH DOT ABOVE",
text! "010D          ; Changes_When_Titlecased # L&       LATIN SMALL LETTER C WITH CARON",
text! "010F          ; Changes_When_Titlecased # L&       LATIN SMALL LETTER D WITH CARON",
text! "0111          ; Changes_When_Titlecased # L&       LATIN SMALL LETTER D WITH STROKE",
text! "0113          ; Changes_When_Titlecased # L&       LATIN SMALL LETTER E WITH MACRON",
text! "0115          ; Changes_When_Titlecased # L&       LATIN SMALL LETTER E WITH BREVE",
text! "0117          ; Changes_When_Titlecased # L&       LATIN SMALL LETTER E WITH DOT ABOVE",
text! "0119          ; Changes_When_Titlecased # L&       LATIN SMALL LETTER E WITH OGONEK",
text! "011B          ; Changes_When_Titlecased # L&       LATIN SMALL LETTER E WITH CARON",
text! "011D          ; Changes_When_Titlecased # L&       LATIN SMALL LETTER G WITH CIRCUMFLEX",
text! "011F          ; Changes_When_Titlecased # L&       LATIN SMALL LETTER G WITH BREVE",
text! "0121          ; Changes_When_Titlecased # L&       LATIN SMALL LETTER G WITH DOT ABOVE",
text! "0123          ; Changes_When_Titlecased # L&       LATIN SMALL LETTER G WITH CEDILLA",
text! "0125          ; Changes_When_Titlecased # L&       LATIN SMALL LETTER H WITH CIRCUMFLEX",
text! "0127          ; Changes_When_Titlecased # L&       LATIN SMALL LETTER H WITH STROKE",
text! "0129          ; Changes_When_Titlecased # L&       LATIN SMALL LETTER I WITH TILDE",
text! "012B          ; Changes_When_Titlecased # L&       LATIN SMALL LETTER I WITH MACRON",
text! "012D          ; Changes_When_Titlecased # L&       LATIN SMALL LETTER I WITH BREVE",
text! "012F          ; Changes_When_Titlecased # L&       LATIN SMALL LETTER I WITH OGONEK",
text! "0131          ; Changes_When_Titlecased # L&       LATIN SMALL LETTER DOTLESS I",
text! "0133          ; Changes_When_Titlecased # L&       LATIN SMALL LIGATURE IJ",
text! "0135          ; Changes_When_Titlecased # L&       LATIN SMALL LETTER J WITH CIRCUMFLEX"]

/-- lines 4865-4928 -/
def derivedCore76 : List Nat := [
text! "0137          ; Changes_When_Titlecased # L&       LATIN SMALL LETTER K WITH CEDILLA",
text! "013A          ; Changes_When_Titlecased # L&       LATIN SMALL LETTER L WITH ACUTE",
text! "013C          ; Changes_When_Titlecased # L&       LATIN SMALL LETTER L WITH CEDILLA",
text! "013E          ; Changes_When_Titlecased # L&       LATIN SMALL LETTER L WITH CARON",
text! "0140          ; Changes_When_Titlecased # L&       LATIN SMALL LETTER L WITH MIDDLE DOT",
text! "0142          ; Changes_When_Titlecased # L&       LATIN SMALL LETTER L WITH STROKE",
text! "0144          ; Changes_When_Titlecased # L&       LATIN SMALL LETTER N WITH ACUTE",
text! "0146          ; Changes_When_Titlecased # L&       LATIN SMALL LETTER N WITH CEDILLA",
text! "0148..0149    ; Changes_When_Titlecased # L&   [2] LATIN SMALL LETTER N WITH CARON..LATIN SMALL LETTER N PRECEDED BY APOSTROPHE",
text! "014B          ; Changes_When_Titlecased # L&       LATIN SMALL LETTER ENG",
text! "014D          ; Changes_When_Titlecased # L&       LATIN SMALL LETTER O WITH MACRON",
text! "014F          ; Changes_When_Titlecased # L&       LATIN SMALL LETTER O WITH BREVE",
text! "0151          ; Changes_When_Titlecased # L&       LATIN SMALL LETTER O WITH DOUBLE ACUTE",
text! "0153          ; Changes_When_Titlecased # L&       LATIN SMALL LIGATURE OE",
text! "0155          ; Changes_When_Titlecased # L&       LATIN SMALL LETTER R WITH ACUTE",
text! "0157          ; Changes_When_Titlecased # L&       LATIN SMALL LETTER R WITH CEDILLA",
text! "0159          ; Changes_When_Titlecased # L&       LATIN SMALL LETTER R WITH CARON",
text! "015B          ; Changes_When_Titlecased # L&       LATIN SMALL LETTER S WITH ACUTE",
text! "015D          ; Changes_When_Titlecased # L&       LATIN SMALL LETTER S WITH CIRCUMFLEX",
text! "015F          ; Changes_When_Titlecased # L&       LATIN SMALL LETTER S WITH CEDILLA",
text! "0161          ; Changes_When_Titlecased # L&       LATIN SMALL LETTER S WITH CARON",
text! "0163          ; Changes_When_Titlecased # L&       LATIN SMALL LETTER T WITH CEDILLA",
text! "0165          ; Changes_When_Titlecased # L&       LATIN SMALL LETTER T WITH CARON",
text! "0167          ; Changes_When_Titlecased # L&       LATIN SMALL LETTER T WITH STROKE",
text! "0169          ; Changes_When_Titlecased # L&       LATIN SMALL LETTER U WITH TILDE",
text! "016B          ; Changes_When_Titlecased # L&       LATIN SMALL LETTER U WITH MACRON",
text! "016D          ; Changes_When_Titlecased # L&       LATIN SMALL LETTER U WITH BREVE",
text! "016F          ; Changes_When_Titlecased # L&       LATIN SMALL LETTER U WITH RING ABOVE",
text! "0171          ; Changes_When_Titlecased # L&       LATIN SMALL LETTER U WITH DOUBLE ACUTE",
text! "0173          ; Changes_When_Titlecased # L&       LATIN SMALL LETTER U WITH OGONEK",
text! "0175          ; Changes_When_Titlecased # L&       LATIN SMALL LETTER W WITH CIRCUMFLEX",
text! "0177          ; Changes_When_Titlecased # L&       LATIN SMALL LETTER Y WITH CIRCUMFLEX",
text! "017A          ; Changes_When_Titlecased # L&       LATIN SMALL LETTER Z WITH ACUTE",
text! "017C          ; Changes_When_Titlecased # L&       LATIN SMALL LETTER Z WITH DOT ABOVE",
text! "017E..0180    ; Changes_When_Titlecased # L&   [3] LATIN SMALL LETTER Z WITH CARON..LATIN SMALL LETTER B WITH STROKE",
text! "0183          ; Changes_When_Titlecased # L&       LATIN SMALL LETTER B WITH TOPBAR",
text! "0185          ; Changes_When_Titlecased # L&       LATIN SMALL LETTER TONE SIX",
text! "0188          ; Changes_When_Titlecased # L&       LATIN SMALL LETTER C WITH HOOK",
text! "018C          ; Changes_When_Titlecased # L&       LATIN SMALL LETTER D WITH TOPBAR",
text! "0192          ; Changes_When_Titlecased # L&       LATIN SMALL LETTER F WITH HOOK",
text! "0195          ; Changes_When_Titlecased # L&       LATIN SMALL LETTER HV",
text! "0199..019B    ; Changes_When_Titlecased # L&   [3] LATIN SMALL LETTER K WITH HOOK..LATIN SMALL LETTER LAMBDA WITH STROKE",
text! "019E          ; Changes_When_Titlecased # L&       LATIN SMALL LETTER N WITH LONG RIGHT LEG",
text! "01A1          ; Changes_When_Titlecased # L&       LATIN SMALL LETTER O WITH HORN",
text! "01A3          ; Changes_When_Titlecased # L&       LATIN SMALL LETTER OI",
text! "01A5          ; Changes_When_Titlecased # L&       LATIN SMALL LETTER P WITH HOOK",
text! "01A8          ; Changes_When_Titlecased # L&       LATIN SMALL LETTER TONE TWO",
text! "01AD          ; Changes_When_Titlecased # L&       LATIN SMALL LETTER T WITH HOOK",
text! "01B0          ; Changes_When_Titlecased # L&       LATIN SMALL LETTER U WITH HORN",
text! "01B4          ; Changes_When_Titlecased # L&       LATIN SMALL LETTER Y WITH HOOK",
text! "01B6          ; Changes_When_Titlecased # L&       LATIN SMALL LETTER Z WITH STROKE",
text! "01B9          ; Changes_When_Titlecased # L&       LATIN SMALL LETTER EZH REVERSED",
text! "01BD          ; Changes_When_Titlecased # L&       LATIN SMALL LETTER TONE FIVE",
text! "01BF          ; Changes_When_Titlecased # L&       LATIN LETTER WYNN",
text! "01C4          ; Changes_When_Titlecased # L&       LATIN CAPITAL LETTER DZ WITH CARON",
text! "01C6..01C7    ; Changes_When_Titlecased # L&   [2] LATIN SMALL LETTER DZ WITH CARON..LATIN CAPITAL LETTER LJ",
text! "01C9..01CA    ; Changes_When_Titlecased # L&   [2] LATIN SMALL LETTER LJ..LATIN CAPITAL LETTER NJ",
text! "01CC          ; Changes_When_Titlecased # L&       LATIN SMALL LETTER NJ",
text! "01CE          ; Changes_When_Titlecased # L&       LATIN SMALL LETTER A WITH CARON",
text! "01D0          ; Changes_When_Titlecased # L&       LATIN SMALL LETTER I WITH CARON",
text! "01D2          ; Changes_When_Titlecased # L&       LATIN SMALL LETTER O WITH CARON",
text! "01D4          ; Changes_When_Titlecased # L&       LATIN SMALL LETTER U WITH CARON",
text! "01D6          ; Changes_When_Titlecased # L&       LATIN SMALL LETTER U WITH DIAERESIS AND MACRON",
text! "01D8          ; Changes_When_Titlecased # L&       LATIN SMALL LETTER U WITH DIAERESIS AND ACUTE"]

/-- lines 4929-4992 -/
def derivedCore77 : List Nat := [
text! "01DA          ; Changes_When_Titlecased # L&       LATIN SMALL LETTER U WITH DIAERESIS AND CARON",
text! "01DC..01DD    ; Changes_When_Titlecased # L&   [2] LATIN SMALL LETTER U WITH DIAERESIS AND GRAVE..LATIN SMALL LETTER TURNED E",
text! "01DF          ; Changes_When_Titlecased # L&       LATIN SMALL LETTER A WITH DIAERESIS AND MACRON",
text! "01E1          ; Changes_When_Titlecased # L&       LATIN SMALL LETTER A WITH DOT ABOVE AND MACRON",
text! "01E3          ; Changes_When_Titlecased # L&       LATIN SMALL LETTER AE WITH MACRON",
text! "01E5          ; Changes_When_Titlecased # L&       LATIN SMALL LETTER G WITH STROKE",
text! "01E7          ; Changes_When_Titlecased # L&       LATIN SMALL LETTER G WITH CARON",
text! "01E9          ; Changes_When_Titlecased # L&       LATIN SMALL LETTER K WITH CARON",
text! "01EB          ; Changes_When_Titlecased # L&       LATIN SMALL LETTER O WITH OGONEK",
text! "01ED          ; Changes_When_Titlecased # L&       LATIN SMALL LETTER O WITH OGONEK AND MACRON",
text! "01EF..01F1    ; Changes_When_Titlecased # L&   [3] LATIN SMALL LETTER EZH WITH CARON..LATIN CAPITAL LETTER DZ",
text! "01F3          ; Changes_When_Titlecased # L&       LATIN SMALL LETTER DZ",
text! "01F5          ; Changes_When_Titlecased # L&       LATIN SMALL LETTER G WITH ACUTE",
text! "01F9          ; Changes_When_Titlecased # L&       LATIN SMALL LETTER N WITH GRAVE",
text! "01FB          ; Changes_When_Titlecased # L&       LATIN SMALL LETTER A WITH RING ABOVE AND ACUTE",
text! "01FD          ; Changes_When_Titlecased # L&       LATIN SMALL LETTER AE WITH ACUTE",
text! "01FF          ; Changes_When_Titlecased # L&       LATIN SMALL LETTER O WITH STROKE AND ACUTE",
text! "0201          ; Changes_When_Titlecased # L&       LATIN SMALL LETTER A WITH DOUBLE GRAVE",
text! "0203          ; Changes_When_Titlecased # L&       LATIN SMALL LETTER A WITH INVERTED BREVE",
text! "0205          ; Changes_When_Titlecased # L&       LATIN SMALL LETTER E WITH DOUBLE GRAVE",
text! "0207          ; Changes_When_Titlecased # L&       LATIN SMALL LETTER E WITH INVERTED BREVE",
text! "0209          ; Changes_When_Titlecased # L&       LATIN SMALL LETTER I WITH DOUBLE GRAVE",
text! "020B          ; Changes_When_Titlecased # L&       LATIN SMALL LETTER I WITH INVERTED BREVE",
text! "020D          ; Changes_When_Titlecased # L&       LATIN SMALL LETTER O WITH DOUBLE GRAVE",
text! "020F          ; Changes_When_Titlecased # L&       LATIN SMALL LETTER O WITH INVERTED BREVE",
text! "0211          ; Changes_When_Titlecased # L&       LATIN SMALL LETTER R WITH DOUBLE GRAVE",
text! "0213          ; Changes_When_Titlecased # L&       LATIN SMALL LETTER R WITH INVERTED BREVE",
text! "0215          ; Changes_When_Titlecased # L&       LATIN SMALL LETTER U WITH DOUBLE GRAVE",
text! "0217          ; Changes_When_Titlecased # L&       LATIN SMALL LETTER U WITH INVERTED BREVE",
text! "0219          ; Changes_When_Titlecased # L&       LATIN SMALL LETTER S WITH COMMA BELOW",
text! "021B          ; Changes_When_Titlecased # L&       LATIN SMALL LETTER T WITH COMMA BELOW",
text! "021D          ; Changes_When_Titlecased # L&       LATIN SMALL LETTER YOGH",
text! "021F          ; Changes_When_Titlecased # L&       LATIN SMALL LETTER H WITH CARON",
text! "0223          ; Changes_When_Titlecased # L&       LATIN SMALL LETTER OU",
text! "0225          ; Changes_When_Titlecased # L&       LATIN SMALL LETTER Z WITH HOOK",
text! "0227          ; Changes_When_Titlecased # L&       LATIN SMALL LETTER A WITH DOT ABOVE",
text! "0229          ; Changes_When_Titlecased # L&       LATIN SMALL LETTER E WITH CEDILLA",
text! "022B          ; Changes_When_Titlecased # L&       LATIN SMALL LETTER O WITH DIAERESIS AND MACRON",
text! "022D          ; Changes_When_Titlecased # L&       LATIN SMALL LETTER O WITH TILDE AND MACRON",
text! "022F          ; Changes_When_Titlecased # L&       LATIN SMALL LETTER O WITH DOT ABOVE",
text! "0231          ; Changes_When_Titlecased # L&       LATIN SMALL LETTER O WITH DOT ABOVE AND MACRON",
text! "0233          ; Changes_When_Titlecased # L&       LATIN SMALL LETTER Y WITH MACRON",
text! "023C          ; Changes_When_Titlecased # L&       LATIN SMALL LETTER C WITH STROKE",
text! "023F..0240    ; Changes_When_Titlecased # L&   [2] LATIN SMALL LETTER S WITH SWASH TAIL..LATIN SMALL LETTER Z WITH SWASH TAIL",
text! "0242          ; Changes_When_Titlecased # L&       LATIN SMALL LETTER GLOTTAL STOP",
text! "0247          ; Changes_When_Titlecased # L&       LATIN SMALL LETTER E WITH STROKE",
text! "0249          ; Changes_When_Titlecased # L&       LATIN SMALL LETTER J WITH STROKE",
text! "024B          ; Changes_When_Titlecased # L&       LATIN SMALL LETTER Q WITH HOOK TAIL",
text! "024D          ; Changes_When_Titlecased # L&       LATIN SMALL LETTER R WITH STROKE",
text! "024F..0254    ; Changes_When_Titlecased # L&   [6] LATIN SMALL LETTER Y WITH STROKE..LATIN SMALL LETTER OPEN O",
text! "0256..0257    ; Changes_When_Titlecased # L&   [2] LATIN SMALL LETTER D WITH TAIL..LATIN SMALL LETTER D WITH HOOK",
text! "0259          ; Changes_When_Titlecased # L&       LATIN SMALL LETTER SCHWA",
text! "025B..025C    ; Changes_When_Titlecased # L&   [2] LATIN SMALL LETTER OPEN E..LATIN SMALL LETTER REVERSED OPEN E",
text! "0260..0261    ; Changes_When_Titlecased # L&   [2] LATIN SMALL LETTER G WITH HOOK..LATIN SMALL LETTER SCRIPT G",
text! "0263..0266    ; Changes_When_Titlecased # L&   [4] LATIN SMALL LETTER GAMMA..LATIN SMALL LETTER H WITH HOOK",
text! "0268..026C    ; Changes_When_Titlecased # L&   [5] LATIN SMALL LETTER I WITH STROKE..LATIN SMALL LETTER L WITH BELT",
text! "026F          ; Changes_When_Titlecased # L&       LATIN SMALL LETTER TURNED M",
text! "0271..0272    ; Changes_When_Titlecased # L&   [2] LATIN SMALL LETTER M WITH HOOK..LATIN SMALL LETTER N WITH LEFT HOOK",
text! "0275          ; Changes_When_Titlecased # L&       LATIN SMALL LETTER BARRED O",
text! "027D          ; Changes_When_Titlecased # L&       LATIN SMALL LETTER R WITH TAIL",
text! "0280          ; Changes_When_Titlecased # L&       LATIN LETTER SMALL CAPITAL R",
text! "0282..0283    ; Changes_When_Titlecased # L&   [2] LATIN SMALL LETTER S WITH HOOK..LATIN SMALL LETTER ESH",
text! "0287..028C    ; Changes_When_Titlecased # L&   [6] LATIN SMALL LETTER TURNED T..LATIN SMALL LETTER TURNED V",
text! "0292          ; Changes_When_Titlecased # L&       LATIN SMALL LETTER EZH"]

/-- lines 4993-5056 -/
def derivedCore78 : List Nat := [
text! "029D..029E    ; Changes_When_Titlecased # L&   [2] LATIN SMALL LETTER J WITH CROSSED-TAIL..LATIN SMALL LETTER TURNED K",
text! "0345          ; Changes_When_Titlecased # Mn       COMBINING GREEK YPOGEGRAMMENI",
text! "0371          ; Changes_When_Titlecased # L&       GREEK SMALL LETTER HETA",
text! "0373          ; Changes_When_Titlecased # L&       GREEK SMALL LETTER ARCHAIC SAMPI",
text! "0377          ; Changes_When_Titlecased # L&       GREEK SMALL LETTER PAMPHYLIAN DIGAMMA",
text! "037B..037D    ; Changes_When_Titlecased # L&   [3] GREEK SMALL REVERSED LUNATE SIGMA SYMBOL..GREEK SMALL REVERSED DOTTED LUNATE SIGMA SYMBOL",
text! "0390          ; Changes_When_Titlecased # L&       GREEK SMALL LETTER IOTA WITH DIALYTIKA AND TONOS",
text! "03AC..03CE    ; Changes_When_Titlecased # L&  [35] GREEK SMALL LETTER ALPHA WITH TONOS..GREEK SMALL LETTER OMEGA WITH TONOS",
text! "03D0..03D1    ; Changes_When_Titlecased # L&   [2] GREEK BETA SYMBOL..GREEK THETA SYMBOL",
text! "03D5..03D7    ; Changes_When_Titlecased # L&   [3] GREEK PHI SYMBOL..GREEK KAI SYMBOL",
text! "03D9          ; Changes_When_Titlecased # L&       GREEK SMALL LETTER ARCHAIC KOPPA",
text! "03DB          ; Changes_When_Titlecased # L&       GREEK SMALL LETTER STIGMA",
text! "03DD          ; Changes_When_Titlecased # L&       GREEK SMALL LETTER DIGAMMA",
text! "03DF          ; Changes_When_Titlecased # L&       GREEK SMALL LETTER KOPPA",
text! "03E1          ; Changes_When_Titlecased # L&       GREEK SMALL LETTER SAMPI",
text! "03E3          ; Changes_When_Titlecased # L&       COPTIC SMALL LETTER SHEI",
text! "03E5          ; Changes_When_Titlecased # L&       COPTIC SMALL LETTER FEI",
text! "03E7          ; Changes_When_Titlecased # L&       COPTIC SMALL LETTER KHEI",
text! "03E9          ; Changes_When_Titlecased # L&       COPTIC SMALL LETTER HORI",
text! "03EB          ; Changes_When_Titlecased # L&       COPTIC SMALL LETTER GANGIA",
text! "03ED          ; Changes_When_Titlecased # L&       COPTIC SMALL LETTER SHIMA",
text! "03EF..03F3    ; Changes_When_Titlecased # L&   [5] COPTIC SMALL LETTER DEI..GREEK LETTER YOT",
text! "03F5          ; Changes_When_Titlecased # L&       GREEK LUNATE EPSILON SYMBOL",
text! "03F8          ; Changes_When_Titlecased # L&       GREEK SMALL LETTER SHO",
text! "03FB          ; Changes_When_Titlecased # L&       GREEK SMALL LETTER SAN",
text! "0430..045F    ; Changes_When_Titlecased # L&  [48] CYRILLIC SMALL LETTER A..CYRILLIC SMALL LETTER DZHE",
text! "0461          ; Changes_When_Titlecased # L&       CYRILLIC SMALL LETTER OMEGA",
text! "0463          ; Changes_When_Titlecased # L&       CYRILLIC SMALL LETTER YAT",
text! "0465          ; Changes_When_Titlecased # L&       CYRILLIC SMALL LETTER IOTIFIED E",
text! "0467          ; Changes_When_Titlecased # L&       CYRILLIC SMALL LETTER LITTLE YUS",
text! "0469          ; Changes_When_Titlecased # L&       CYRILLIC SMALL LETTER IOTIFIED LITTLE YUS",
text! "046B          ; Changes_When_Titlecased # L&       CYRILLIC SMALL LETTER BIG YUS",
text! "046D          ; Changes_When_Titlecased # L&       CYRILLIC SMALL LETTER IOTIFIED BIG YUS",
text! "046F          ; Changes_When_Titlecased # L&       CYRILLIC SMALL LETTER KSI",
text! "0471          ; Changes_When_Titlecased # L&       CYRILLIC SMALL LETTER PSI",
text! "0473          ; Changes_When_Titlecased # L&       CYRILLIC SMALL LETTER FITA",
text! "0475          ; Changes_When_Titlecased # L&       CYRILLIC SMALL LETTER IZHITSA",
text! "0477          ; Changes_When_Titlecased # L&       CYRILLIC SMALL LETTER IZHITSA WITH DOUBLE GRAVE ACCENT",
text! "0479          ; Changes_When_Titlecased # L&       CYRILLIC SMALL LETTER UK",
text! "047B          ; Changes_When_Titlecased # L&       CYRILLIC SMALL LETTER ROUND OMEGA",
text! "047D          ; Changes_When_Titlecased # L&       CYRILLIC SMALL LETTER OMEGA WITH TITLO",
text! "047F          ; Changes_When_Titlecased # L&       CYRILLIC SMALL LETTER OT",
text! "0481          ; Changes_When_Titlecased # L&       CYRILLIC SMALL LETTER KOPPA",
text! "048B          ; Changes_When_Titlecased # L&       CYRILLIC SMALL LETTER SHORT I WITH TAIL",
text! "048D          ; Changes_When_Titlecased # L&       CYRILLIC SMALL LETTER SEMISOFT SIGN",
text! "048F          ; Changes_When_Titlecased # L&       CYRILLIC SMALL LETTER ER WITH TICK",
text! "0491          ; Changes_When_Titlecased # L&       CYRILLIC SMALL LETTER GHE WITH UPTURN",
text! "0493          ; Changes_When_Titlecased # L&       CYRILLIC SMALL LETTER GHE WITH STROKE",
text! "0495          ; Changes_When_Titlecased # L&       CYRILLIC SMALL LETTER GHE WITH MIDDLE HOOK",
text! "0497          ; Changes_When_Titlecased # L&       CYRILLIC SMALL LETTER ZHE WITH DESCENDER",
text! "0499          ; Changes_When_Titlecased # L&       CYRILLIC SMALL LETTER ZE WITH DESCENDER",
text! "049B          ; Changes_When_Titlecased # L&       CYRILLIC SMALL LETTER KA WITH DESCENDER",
text! "049D          ; Changes_When_Titlecased # L&       CYRILLIC SMALL LETTER KA WITH VERTICAL STROKE",
text! "049F          ; Changes_When_Titlecased # L&       CYRILLIC SMALL LETTER KA WITH STROKE",
text! "04A1          ; Changes_When_Titlecased # L&       CYRILLIC SMALL LETTER BASHKIR KA",
text! "04A3          ; Changes_When_Titlecased # L&       CYRILLIC SMALL LETTER EN WITH DESCENDER",
text! "04A5          ; Changes_When_Titlecased # L&       CYRILLIC SMALL LIGATURE EN GHE",
text! "04A7          ; Changes_When_Titlecased # L&       CYRILLIC SMALL LETTER PE WITH MIDDLE HOOK",
text! "04A9          ; Changes_When_Titlecased # L&       CYRILLIC SMALL LETTER ABKHASIAN HA",
text! "04AB          ; Changes_When_Titlecased # L&       CYRILLIC SMALL LETTER ES WITH DESCENDER",
text! "04AD          ; Changes_When_Titlecased # L&       CYRILLIC SMALL LETTER TE WITH DESCENDER",
text! "04AF          ; Changes_When_Titlecased # L&       CYRILLIC SMALL LETTER STRAIGHT U",
text! "04B1          ; Changes_When_Titlecased # L&       CYRILLIC SMALL LETTER STRAIGHT U WITH STROKE",
text! "04B3          ; Changes_When_Titlecased # L&       CYRILLIC SMALL LETTER HA WITH DESCENDER"]

/-- lines 5057-5120 -/
def derivedCore79 : List Nat := [
text! "04B5          ; Changes_When_Titlecased # L&       CYRILLIC SMALL LIGATURE TE TSE",
text! "04B7          ; Changes_When_Titlecased # L&       CYRILLIC SMALL LETTER CHE WITH DESCENDER",
text! "04B9          ; Changes_When_Titlecased # L&       CYRILLIC SMALL LETTER CHE WITH VERTICAL STROKE",
text! "04BB          ; Changes_When_Titlecased # L&       CYRILLIC SMALL LETTER SHHA",
text! "04BD          ; Changes_When_Titlecased # L&       CYRILLIC SMALL LETTER ABKHASIAN CHE",
text! "04BF          ; Changes_When_Titlecased # L&       CYRILLIC SMALL LETTER ABKHASIAN CHE WITH DESCENDER",
text! "04C2          ; Changes_When_Titlecased # L&       CYRILLIC SMALL LETTER ZHE WITH BREVE",
text! "04C4          ; Changes_When_Titlecased # L&       CYRILLIC SMALL LETTER KA WITH HOOK",
text! "04C6          ; Changes_When_Titlecased # L&       CYRILLIC SMALL LETTER EL WITH TAIL",
text! "04C8          ; Changes_When_Titlecased # L&       CYRILLIC SMALL LETTER EN WITH HOOK",
text! "04CA          ; Changes_When_Titlecased # L&       CYRILLIC SMALL LETTER EN WITH TAIL",
text! "04CC          ; Changes_When_Titlecased # L&       CYRILLIC SMALL LETTER KHAKASSIAN CHE",
text! "04CE..04CF    ; Changes_When_Titlecased # L&   [2] CYRILLIC SMALL LETTER EM WITH TAIL..CYRILLIC SMALL LETTER PALOCHKA",
text! "04D1          ; Changes_When_Titlecased # L&       CYRILLIC SMALL LETTER A WITH BREVE",
text! "04D3          ; Changes_When_Titlecased # L&       CYRILLIC SMALL LETTER A WITH DIAERESIS",
text! "04D5          ; Changes_When_Titlecased # L&       CYRILLIC SMALL LIGATURE A IE",
text! "04D7          ; Changes_When_Titlecased # L&       CYRILLIC SMALL LETTER IE WITH BREVE",
text! "04D9          ; Changes_When_Titlecased # L&       CYRILLIC SMALL LETTER SCHWA",
text! "04DB          ; Changes_When_Titlecased # L&       CYRILLIC SMALL LETTER SCHWA WITH DIAERESIS",
text! "04DD          ; Changes_When_Titlecased # L&       CYRILLIC SMALL LETTER ZHE WITH DIAERESIS",
text! "04DF          ; Changes_When_Titlecased # L&       CYRILLIC SMALL LETTER ZE WITH DIAERESIS",
text! "04E1          ; Changes_When_Titlecased # L&       CYRILLIC SMALL LETTER ABKHASIAN DZE",
text! "04E3          ; Changes_When_Titlecased # L&       CYRILLIC SMALL LETTER I WITH MACRON",
text! "04E5          ; Changes_When_Titlecased # L&       CYRILLIC SMALL LETTER I WITH DIAERESIS",
text! "04E7          ; Changes_When_Titlecased # L&       CYRILLIC SMALL LETTER O WITH DIAERESIS",
text! "04E9          ; Changes_When_Titlecased # L&       CYRILLIC SMALL LETTER BARRED O",
text! "04EB          ; Changes_When_Titlecased # L&       CYRILLIC SMALL LETTER BARRED O WITH DIAERESIS",
text! "04ED          ; Changes_When_Titlecased # L&       CYRILLIC SMALL LETTER E WITH DIAERESIS",
text! "04EF          ; Changes_When_Titlecased # L&       CYRILLIC SMALL LETTER U WITH MACRON",
text! "04F1          ; Changes_When_Titlecased # L&       CYRILLIC SMALL LETTER U WITH DIAERESIS",
text! "04F3          ; Changes_When_Titlecased # L&       CYRILLIC SMALL LETTER U WITH DOUBLE ACUTE",
text! "04F5          ; Changes_When_Titlecased # L&       CYRILLIC SMALL LETTER CHE WITH DIAERESIS",
text! "04F7          ; Changes_When_Titlecased # L&       CYRILLIC SMALL LETTER GHE WITH DESCENDER",
text! "04F9          ; Changes_When_Titlecased # L&       CYRILLIC SMALL LETTER YERU WITH DIAERESIS",
text! "04FB          ; Changes_When_Titlecased # L&       CYRILLIC SMALL LETTER GHE WITH STROKE AND HOOK",
text! "04FD          ; Changes_When_Titlecased # L&       CYRILLIC SMALL LETTER HA WITH HOOK",
text! "04FF          ; Changes_When_Titlecased # L&       CYRILLIC SMALL LETTER HA WITH STROKE",
text! "0501          ; Changes_When_Titlecased # L&       CYRILLIC SMALL LETTER KOMI DE",
text! "0503          ; Changes_When_Titlecased # L&       CYRILLIC SMALL LETTER KOMI DJE",
text! "0505          ; Changes_When_Titlecased # L&       CYRILLIC SMALL LETTER KOMI ZJE",
text! "0507          ; Changes_When_Titlecased # L&       CYRILLIC SMALL LETTER KOMI DZJE",
text! "0509          ; Changes_When_Titlecased # L&       CYRILLIC SMALL LETTER KOMI LJE",
text! "050B          ; Changes_When_Titlecased # L&       CYRILLIC SMALL LETTER KOMI NJE",
text! "050D          ; Changes_When_Titlecased # L&       CYRILLIC SMALL LETTER KOMI SJE",
text! "050F          ; Changes_When_Titlecased # L&       CYRILLIC SMALL LETTER KOMI TJE",
text! "0511          ; Changes_When_Titlecased # L&       CYRILLIC SMALL LETTER REVERSED ZE",
text! "0513          ; Changes_When_Titlecased # L&       CYRILLIC SMALL LETTER EL WITH HOOK",
text! "0515          ; Changes_When_Titlecased # L&       CYRILLIC SMALL LETTER LHA",
text! "0517          ; Changes_When_Titlecased # L&       CYRILLIC SMALL LETTER RHA",
text! "0519          ; Changes_When_Titlecased # L&       CYRILLIC SMALL LETTER YAE",
text! "051B          ; Changes_When_Titlecased # L&       CYRILLIC SMALL LETTER QA",
text! "051D          ; Changes_When_Titlecased # L&       CYRILLIC SMALL LETTER WE",
text! "051F          ; Changes_When_Titlecased # L&       CYRILLIC SMALL LETTER ALEUT KA",
text! "0521          ; Changes_When_Titlecased # L&       CYRILLIC SMALL LETTER EL WITH MIDDLE HOOK",
text! "0523          ; Changes_When_Titlecased # L&       CYRILLIC SMALL LETTER EN WITH MIDDLE HOOK",
text! "0525          ; Changes_When_Titlecased # L&       CYRILLIC SMALL LETTER PE WITH DESCENDER",
text! "0527          ; Changes_When_Titlecased # L&       CYRILLIC SMALL LETTER SHHA WITH DESCENDER",
text! "0529          ; Changes_When_Titlecased # L&       CYRILLIC SMALL LETTER EN WITH LEFT HOOK",
text! "052B          ; Changes_When_Titlecased # L&       CYRILLIC SMALL LETTER DZZHE",
text! "052D          ; Changes_When_Titlecased # L&       CYRILLIC SMALL LETTER DCHE",
text! "052F          ; Changes_When_Titlecased # L&       CYRILLIC SMALL LETTER EL WITH DESCENDER",
text! "0561..0587    ; Changes_When_Titlecased # L&  [39] ARMENIAN SMALL LETTER AYB..ARMENIAN SMALL LIGATURE ECH YIWN",
text! "13F8..13FD    ; Changes_When_Titlecased # L&   [6] CHEROKEE SMALL LETTER YE..CHEROKEE SMALL LETTER MV",
text! "1C80..1C88    ; Changes_When_Titlecased # L&   [9] CYRILLIC SMALL LETTER ROUNDED VE..CYRILLIC SMALL LETTER UNBLENDED UK"]

/-- lines 5121-5184 -/
def derivedCore80 : List Nat := [
text! "1C8A          ; Changes_When_Titlecased # L&       CYRILLIC SMALL LETTER TJE",
text! "1D79          ; Changes_When_Titlecased # L&       LATIN SMALL LETTER INSULAR G",
text! "1D7D          ; Changes_When_Titlecased # L&       LATIN SMALL LETTER P WITH STROKE",
text! "1D8E          ; Changes_When_Titlecased # L&       LATIN SMALL LETTER Z WITH PALATAL HOOK",
text! "1E01          ; Changes_When_Titlecased # L&       LATIN SMALL LETTER A WITH RING BELOW",
text! "1E03          ; Changes_When_Titlecased # L&       LATIN SMALL LETTER B WITH DOT ABOVE",
text! "1E05          ; Changes_When_Titlecased # L&       LATIN SMALL LETTER B WITH DOT BELOW",
text! "1E07          ; Changes_When_Titlecased # L&       LATIN SMALL LETTER B WITH LINE BELOW",
text! "1E09          ; Changes_When_Titlecased # L&       LATIN SMALL LETTER C WITH CEDILLA AND ACUTE",
text! "1E0B          ; Changes_When_Titlecased # L&       LATIN SMALL LETTER D WITH DOT ABOVE",
text! "1E0D          ; Changes_When_Titlecased # L&       LATIN SMALL LETTER D WITH DOT BELOW",
text! "1E0F          ; Changes_When_Titlecased # L&       LATIN SMALL LETTER D WITH LINE BELOW",
text! "1E11          ; Changes_When_Titlecased # L&       LATIN SMALL LETTER D WITH CEDILLA",
text! "1E13          ; Changes_When_Titlecased # L&       LATIN SMALL LETTER D WITH CIRCUMFLEX BELOW",
text! "1E15          ; Changes_When_Titlecased # L&       LATIN SMALL LETTER E WITH MACRON AND GRAVE",
text! "1E17          ; Changes_When_Titlecased # L&       LATIN SMALL LETTER E WITH MACRON AND ACUTE",
text! "1E19          ; Changes_When_Titlecased # L&       LATIN SMALL LETTER E WITH CIRCUMFLEX BELOW",
text! "1E1B          ; Changes_When_Titlecased # L&       LATIN SMALL LETTER E WITH TILDE BELOW",
text! "1E1D          ; Changes_When_Titlecased # L&       LATIN SMALL LETTER E WITH CEDILLA AND BREVE",
text! "1E1F          ; Changes_When_Titlecased # L&       LATIN SMALL LETTER F WITH DOT ABOVE",
text! "1E21          ; Changes_When_Titlecased # L&       LATIN SMALL LETTER G WITH MACRON",
text! "1E23          ; Changes_When_Titlecased # L&       LATIN SMALL LETTER H WITH DOT ABOVE",
text! "1E25          ; Changes_When_Titlecased # L&       LATIN SMALL LETTER H WITH DOT BELOW",
text! "1E27          ; Changes_When_Titlecased # L&       LATIN SMALL LETTER H WITH DIAERESIS",
text! "1E29          ; Changes_When_Titlecased # L&       LATIN SMALL LETTER H WITH CEDILLA",
text! "1E2B          ; Changes_When_Titlecased # L&       LATIN SMALL LETTER H WITH BREVE BELOW",
text! "1E2D          ; Changes_When_Titlecased # L&       LATIN SMALL LETTER I WITH TILDE BELOW",
text! "1E2F          ; Changes_When_Titlecased # L&       LATIN SMALL LETTER I WITH DIAERESIS AND ACUTE",
text! "1E31          ; Changes_When_Titlecased # L&       LATIN SMALL LETTER K WITH ACUTE",
text! "1E33          ; Changes_When_Titlecased # L&       LATIN SMALL LETTER K WITH DOT BELOW",
text! "1E35          ; Changes_When_Titlecased # L&       LATIN SMALL LETTER K WITH LINE BELOW",
text! "1E37          ; Changes_When_Titlecased # L&       LATIN SMALL LETTER L WITH DOT BELOW",
text! "1E39          ; Changes_When_Titlecased # L&       LATIN SMALL LETTER L WITH DOT BELOW AND MACRON",
text! "1E3B          ; Changes_When_Titlecased # L&       LATIN SMALL LETTER L WITH LINE BELOW",
text! "1E3D          ; Changes_When_Titlecased # L&       LATIN SMALL LETTER L WITH CIRCUMFLEX BELOW",
text! "1E3F          ; Changes_When_Titlecased # L&       LATIN SMALL LETTER M WITH ACUTE",
text! "1E41          ; Changes_When_Titlecased # L&       LATIN SMALL LETTER M WITH DOT ABOVE",
text! "1E43          ; Changes_When_Titlecased # L&       LATIN SMALL LETTER M WITH DOT BELOW",
text! "1E45          ; Changes_When_Titlecased # L&       LATIN SMALL LETTER N WITH DOT ABOVE",
text! "1E47          ; Changes_When_Titlecased # L&       LATIN SMALL LETTER N WITH DOT BELOW",
text! "1E49          ; Changes_When_Titlecased # L&       LATIN SMALL LETTER N WITH LINE BELOW",
text! "1E4B          ; Changes_When_Titlecased # L&       LATIN SMALL LETTER N WITH CIRCUMFLEX BELOW",
text! "1E4D          ; Changes_When_Titlecased # L&       LATIN SMALL LETTER O WITH TILDE AND ACUTE",
text! "1E4F          ; Changes_When_Titlecased # L&       LATIN SMALL LETTER O WITH TILDE AND DIAERESIS",
text! "1E51          ; Changes_When_Titlecased # L&       LATIN SMALL LETTER O WITH MACRON AND GRAVE",
text! "1E53          ; Changes_When_Titlecased # L&       LATIN SMALL LETTER O WITH MACRON AND ACUTE",
text! "1E55          ; Changes_When_Titlecased # L&       LATIN SMALL LETTER P WITH ACUTE",
text! "1E57          ; Changes_When_Titlecased # L&       LATIN SMALL LETTER P WITH DOT ABOVE",
text! "1E59          ; Changes_When_Titlecased # L&       LATIN SMALL LETTER R WITH DOT ABOVE",
text! "1E5B          ; Changes_When_Titlecased # L&       LATIN SMALL LETTER R WITH DOT BELOW",
text! "1E5D          ; Changes_When_Titlecased # L&       LATIN SMALL LETTER R WITH DOT BELOW AND MACRON",
text! "1E5F          ; Changes_When_Titlecased # L&       LATIN SMALL LETTER R WITH LINE BELOW",
text! "1E61          ; Changes_When_Titlecased # L&       LATIN SMALL LETTER S WITH DOT ABOVE",
text! "1E63          ; Changes_When_Titlecased # L&       LATIN SMALL LETTER S WITH DOT BELOW",
text! "1E65          ; Changes_When_Titlecased # L&       LATIN SMALL LETTER S WITH ACUTE AND DOT ABOVE",
text! "1E67          ; Changes_When_Titlecased # L&       LATIN SMALL LETTER S WITH CARON AND DOT ABOVE",
text! "1E69          ; Changes_When_Titlecased # L&       LATIN SMALL LETTER S WITH DOT BELOW AND DOT ABOVE",
text! "1E6B          ; Changes_When_Titlecased # L&       LATIN SMALL LETTER T WITH DOT ABOVE",
text! "1E6D          ; Changes_When_Titlecased # L&       LATIN SMALL LETTER T WITH DOT BELOW",
text! "1E6F          ; Changes_When_Titlecased # L&       LATIN SMALL LETTER T WITH LINE BELOW",
text! "1E71          ; Changes_When_Titlecased # L&       LATIN SMALL LETTER T WITH CIRCUMFLEX BELOW",
text! "1E73          ; Changes_When_Titlecased # L&       LATIN SMALL LETTER U WITH DIAERESIS BELOW",
text! "1E75          ; Changes_When_Titlecased # L&       LATIN SMALL LETTER U WITH TILDE BELOW",
text! "1E77          ; Changes_When_Titlecased # L&       LATIN SMALL LETTER U WITH CIRCUMFLEX BELOW"]

/-- lines 5185-5248 -/
def derivedCore81 : List Nat := [
text! "1E79          ; Changes_When_Titlecased # L&       LATIN SMALL LETTER U WITH TILDE AND ACUTE",
text! "1E7B          ; Changes_When_Titlecased # L&       LATIN SMALL LETTER U WITH MACRON AND DIAERESIS",
text! "1E7D          ; Changes_When_Titlecased # L&       LATIN SMALL LETTER V WITH TILDE",
text! "1E7F          ; Changes_When_Titlecased # L&       LATIN SMALL LETTER V WITH DOT BELOW",
text! "1E81          ; Changes_When_Titlecased # L&       LATIN SMALL LETTER W WITH GRAVE",
text! "1E83          ; Changes_When_Titlecased # L&       LATIN SMALL LETTER W WITH ACUTE",
text! "1E85          ; Changes_When_Titlecased # L&       LATIN SMALL LETTER W WITH DIAERESIS",
text! "1E87          ; Changes_When_Titlecased # L&       LATIN SMALL LETTER W WITH DOT ABOVE",
text! "1E89          ; Changes_When_Titlecased # L&       LATIN SMALL LETTER W WITH DOT BELOW",
text! "1E8B          ; Changes_When_Titlecased # L&       LATIN SMALL LETTER X WITH DOT ABOVE",
text! "1E8D          ; Changes_When_Titlecased # L&       LATIN SMALL LETTER X WITH DIAERESIS",
text! "1E8F          ; Changes_When_Titlecased # L&       LATIN SMALL LETTER Y WITH DOT ABOVE",
text! "1E91          ; Changes_When_Titlecased # L&       LATIN SMALL LETTER Z WITH CIRCUMFLEX",
text! "1E93          ; Changes_When_Titlecased # L&       LATIN SMALL LETTER Z WITH DOT BELOW",
text! "1E95..1E9B    ; Changes_When_Titlecased # L&   [7] LATIN SMALL LETTER Z WITH LINE BELOW..LATIN SMALL LETTER LONG S WITH DOT ABOVE",
text! "1EA1          ; Changes_When_Titlecased # L&       LATIN SMALL LETTER A WITH DOT BELOW",
text! "1EA3          ; Changes_When_Titlecased # L&       LATIN SMALL LETTER A WITH HOOK ABOVE",
text! "1EA5          ; Changes_When_Titlecased # L&       LATIN SMALL LETTER A WITH CIRCUMFLEX AND ACUTE",
text! "1EA7          ; Changes_When_Titlecased # L&       LATIN SMALL LETTER A WITH CIRCUMFLEX AND GRAVE",
text! "1EA9          ; Changes_When_Titlecased # L&       LATIN SMALL LETTER A WITH CIRCUMFLEX AND HOOK ABOVE",
text! "1EAB          ; Changes_When_Titlecased # L&       LATIN SMALL LETTER A WITH CIRCUMFLEX AND TILDE",
text! "1EAD          ; Changes_When_Titlecased # L&       LATIN SMALL LETTER A WITH CIRCUMFLEX AND DOT BELOW",
text! "1EAF          ; Changes_When_Titlecased # L&       LATIN SMALL LETTER A WITH BREVE AND ACUTE",
text! "1EB1          ; Changes_When_Titlecased # L&       LATIN SMALL LETTER A WITH BREVE AND GRAVE",
text! "1EB3          ; Changes_When_Titlecased # L&       LATIN SMALL LETTER A WITH BREVE AND HOOK ABOVE",
text! "1EB5          ; Changes_When_Titlecased # L&       LATIN SMALL LETTER A WITH BREVE AND TILDE",
text! "1EB7          ; Changes_When_Titlecased # L&       LATIN SMALL LETTER A WITH BREVE AND DOT BELOW",
text! "1EB9          ; Changes_When_Titlecased # L&       LATIN SMALL LETTER E WITH DOT BELOW",
text! "1EBB          ; Changes_When_Titlecased # L&       LATIN SMALL LETTER E WITH HOOK ABOVE",
text! "1EBD          ; Changes_When_Titlecased # L&       LATIN SMALL LETTER E WITH TILDE",
text! "1EBF          ; Changes_When_Titlecased # L&       LATIN SMALL LETTER E WITH CIRCUMFLEX AND ACUTE",
text! "1EC1          ; Changes_When_Titlecased # L&       LATIN SMALL LETTER E WITH CIRCUMFLEX AND GRAVE",
text! "1EC3          ; Changes_When_Titlecased # L&       LATIN SMALL LETTER E WITH CIRCUMFLEX AND HOOK ABOVE",
text! "1EC5          ; Changes_When_Titlecased # L&       LATIN SMALL LETTER E WITH CIRCUMFLEX AND TILDE",
text! "1EC7          ; Changes_When_Titlecased # L&       LATIN SMALL LETTER E WITH CIRCUMFLEX AND DOT BELOW",
text! "1EC9          ; Changes_When_Titlecased # L&       LATIN SMALL LETTER I WITH HOOK ABOVE",
text! "1ECB          ; Changes_When_Titlecased # L&       LATIN SMALL LETTER I WITH DOT BELOW",
text! "1ECD          ; Changes_When_Titlecased # L&       LATIN SMALL LETTER O WITH DOT BELOW",
text! "1ECF          ; Changes_When_Titlecased # L&       LATIN SMALL LETTER O WITH HOOK ABOVE",
text! "1ED1          ; Changes_When_Titlecased # L&       LATIN SMALL LETTER O WITH CIRCUMFLEX AND ACUTE",
text! "1ED3          ; Changes_When_Titlecased # L&       LATIN SMALL LETTER O WITH CIRCUMFLEX AND GRAVE",
text! "1ED5          ; Changes_When_Titlecased # L&       LATIN SMALL LETTER O WITH CIRCUMFLEX AND HOOK ABOVE",
text! "1ED7          ; Changes_When_Titlecased # L&       LATIN SMALL LETTER O WITH CIRCUMFLEX AND TILDE",
text! "1ED9          ; Changes_When_Titlecased # L&       LATIN SMALL LETTER O WITH CIRCUMFLEX AND DOT BELOW",
text! "1EDB          ; Changes_When_Titlecased # L&       LATIN SMALL LETTER O WITH HORN AND ACUTE",
text! "1EDD          ; Changes_When_Titlecased # L&       LATIN SMALL LETTER O WITH HORN AND GRAVE",
text! "1EDF          ; Changes_When_Titlecased # L&       LATIN SMALL LETTER O WITH HORN AND HOOK ABOVE",
text! "1EE1          ; Changes_When_Titlecased # L&       LATIN SMALL LETTER O WITH HORN AND TILDE",
text! "1EE3          ; Changes_When_Titlecased # L&       LATIN SMALL LETTER O WITH HORN AND DOT BELOW",
text! "1EE5          ; Changes_When_Titlecased # L&       LATIN SMALL LETTER U WITH DOT BELOW",
text! "1EE7          ; Changes_When_Titlecased # L&       LATIN SMALL LETTER U WITH HOOK ABOVE",
text! "1EE9          ; Changes_When_Titlecased # L&       LATIN SMALL LETTER U WITH HORN AND ACUTE",
text! "1EEB          ; Changes_When_Titlecased # L&       LATIN SMALL LETTER U WITH HORN AND GRAVE",
text! "1EED          ; Changes_When_Titlecased # L&       LATIN SMALL LETTER U WITH HORN AND HOOK ABOVE",
text! "1EEF          ; Changes_When_Titlecased # L&       LATIN SMALL LETTER U WITH HORN AND TILDE",
text! "1EF1          ; Changes_When_Titlecased # L&       LATIN SMALL LETTER U WITH HORN AND DOT BELOW",
text! "1EF3          ; Changes_When_Titlecased # L&       LATIN SMALL LETTER Y WITH GRAVE",
text! "1EF5          ; Changes_When_Titlecased # L&       LATIN SMALL LETTER Y WITH DOT BELOW",
text! "1EF7          ; Changes_When_Titlecased # L&       LATIN SMALL LETTER Y WITH HOOK ABOVE",
text! "1EF9          ; Changes_When_Titlecased # L&       LATIN SMALL LETTER Y WITH TILDE",
text! "1EFB          ; Changes_When_Titlecased # L&       LATIN SMALL LETTER MIDDLE-WELSH LL",
text! "1EFD          ; Changes_When_Titlecased # L&       LATIN SMALL LETTER MIDDLE-WELSH V",
text! "1EFF..1F07    ; Changes_When_Titlecased # L&   [9] LATIN SMALL LETTER Y WITH LOOP..GREEK SMALL LETTER ALPHA WITH DASIA AND PERISPOMENI",
text! "1F10..1F15    ; Changes_When_Titlecased # L&   [6] GREEK SMALL LETTER EPSILON WITH PSILI..GREEK SMALL LETTER EPSILON WITH DASIA AND OXIA"]

/-- lines 5249-5312 -/
def derivedCore82 : List Nat := [
text! "1F20..1F27    ; Changes_When_Titlecased # L&   [8] GREEK SMALL LETTER ETA WITH PSILI..GREEK SMALL LETTER ETA WITH DASIA AND PERISPOMENI",
text! "1F30..1F37    ; Changes_When_Titlecased # L&   [8] GREEK SMALL LETTER IOTA WITH PSILI..GREEK SMALL LETTER IOTA WITH DASIA AND PERISPOMENI",
text! "1F40..1F45    ; Changes_When_Titlecased # L&   [6] GREEK SMALL LETTER OMICRON WITH PSILI..GREEK SMALL LETTER OMICRON WITH DASIA AND OXIA",
text! "1F50..1F57    ; Changes_When_Titlecased # L&   [8] GREEK SMALL LETTER UPSILON WITH PSILI..GREEK SMALL LETTER UPSILON WITH DASIA AND PERISPOMENI",
text! "1F60..1F67    ; Changes_When_Titlecased # L&   [8] GREEK SMALL LETTER OMEGA WITH PSILI..GREEK SMALL LETTER OMEGA WITH DASIA AND PERISPOMENI",
text! "1F70..1F7D    ; Changes_When_Titlecased # L&  [14] GREEK SMALL LETTER ALPHA WITH VARIA..GREEK SMALL LETTER OMEGA WITH OXIA",
text! "1F80..1F87    ; Changes_When_Titlecased # L&   [8] GREEK SMALL LETTER ALPHA WITH PSILI AND YPOGEGRAMMENI..GREEK SMALL LETTER ALPHA WITH DASIA AND PERISPOMENI AND YPOGEGRAMMENI",
text! "1F90..1F97    ; Changes_When_Titlecased # L&   [8] GREEK SMALL LETTER ETA WITH PSILI AND YPOGEGRAMMENI..GREEK SMALL LETTER ETA WITH DASIA AND PERISPOMENI AND YPOGEGRAMMENI",
text! "1FA0..1FA7    ; Changes_When_Titlecased # L&   [8] GREEK SMALL LETTER OMEGA WITH PSILI AND YPOGEGRAMMENI..GREEK SMALL LETTER OMEGA WITH DASIA AND PERISPOMENI AND YPOGEGRAMMENI",
text! "1FB0..1FB4    ; Changes_When_Titlecased # L&   [5] GREEK SMALL LETTER ALPHA WITH VRACHY..GREEK SMALL LETTER ALPHA WITH OXIA AND YPOGEGRAMMENI",
text! "1FB6..1FB7    ; Changes_When_Titlecased # L&   [2] GREEK SMALL LETTER ALPHA WITH PERISPOMENI..GREEK SMALL LETTER ALPHA WITH PERISPOMENI AND YPOGEGRAMMENI",
text! "1FBE          ; Changes_When_Titlecased # L&       GREEK PROSGEGRAMMENI",
text! "1FC2..1FC4    ; Changes_When_Titlecased # L&   [3] GREEK SMALL LETTER ETA WITH VARIA AND YPOGEGRAMMENI..GREEK SMALL LETTER ETA WITH OXIA AND YPOGEGRAMMENI",
text! "1FC6..1FC7    ; Changes_When_Titlecased # L&   [2] GREEK SMALL LETTER ETA WITH PERISPOMENI..GREEK SMALL LETTER ETA WITH PERISPOMENI AND YPOGEGRAMMENI",
text! "1FD0..1FD3    ; Changes_When_Titlecased # L&   [4] GREEK SMALL LETTER IOTA WITH VRACHY..GREEK SMALL LETTER IOTA WITH DIALYTIKA AND OXIA",
text! "1FD6..1FD7    ; Changes_When_Titlecased # L&   [2] GREEK SMALL LETTER IOTA WITH PERISPOMENI..GREEK SMALL LETTER IOTA WITH DIALYTIKA AND PERISPOMENI",
text! "1FE0..1FE7    ; Changes_When_Titlecased # L&   [8] GREEK SMALL LETTER UPSILON WITH VRACHY..GREEK SMALL LETTER UPSILON WITH DIALYTIKA AND PERISPOMENI",
text! "1FF2..1FF4    ; Changes_When_Titlecased # L&   [3] GREEK SMALL LETTER OMEGA WITH VARIA AND YPOGEGRAMMENI..GREEK SMALL LETTER OMEGA WITH OXIA AND YPOGEGRAMMENI",
text! "1FF6..1FF7    ; Changes_When_Titlecased # L&   [2] GREEK SMALL LETTER OMEGA WITH PERISPOMENI..GREEK SMALL LETTER OMEGA WITH PERISPOMENI AND YPOGEGRAMMENI",
text! "214E          ; Changes_When_Titlecased # L&       TURNED SMALL F",
text! "2170..217F    ; Changes_When_Titlecased # Nl  [16] SMALL ROMAN NUMERAL ONE..SMALL ROMAN NUMERAL ONE THOUSAND",
text! "2184          ; Changes_When_Titlecased # L&       LATIN SMALL LETTER REVERSED C",
text! "24D0..24E9    ; Changes_When_Titlecased # So  [26] CIRCLED LATIN SMALL LETTER A..CIRCLED LATIN SMALL LETTER Z",
text! "2C30..2C5F    ; Changes_When_Titlecased # L&  [48] GLAGOLITIC SMALL LETTER AZU..GLAGOLITIC SMALL LETTER CAUDATE CHRIVI",
text! "2C61          ; Changes_When_Titlecased # L&       LATIN SMALL LETTER L WITH DOUBLE BAR",
text! "2C65..2C66    ; Changes_When_Titlecased # L&   [2] LATIN SMALL LETTER A WITH STROKE..LATIN SMALL LETTER T WITH DIAGONAL STROKE",
text! "2C68          ; Changes_When_Titlecased # L&       LATIN SMALL LETTER H WITH DESCENDER",
text! "2C6A          ; Changes_When_Titlecased # L&       LATIN SMALL LETTER K WITH DESCENDER",
text! "2C6C          ; Changes_When_Titlecased # L&       LATIN SMALL LETTER Z WITH DESCENDER",
text! "2C73          ; Changes_When_Titlecased # L&       LATIN SMALL LETTER W WITH HOOK",
text! "2C76          ; Changes_When_Titlecased # L&       LATIN SMALL LETTER HALF H",
text! "2C81          ; Changes_When_Titlecased # L&       COPTIC SMALL LETTER ALFA",
text! "2C83          ; Changes_When_Titlecased # L&       COPTIC SMALL LETTER VIDA",
text! "2C85          ; Changes_When_Titlecased # L&       COPTIC SMALL LETTER GAMMA",
text! "2C87          ; Changes_When_Titlecased # L&       COPTIC SMALL LETTER DALDA",
text! "2C89          ; Changes_When_Titlecased # L&       COPTIC SMALL LETTER EIE",
text! "2C8B          ; Changes_When_Titlecased # L&       COPTIC SMALL LETTER SOU",
text! "2C8D          ; Changes_When_Titlecased # L&       COPTIC SMALL LETTER ZATA",
text! "2C8F          ; Changes_When_Titlecased # L&       COPTIC SMALL LETTER HATE",
text! "2C91          ; Changes_When_Titlecased # L&       COPTIC SMALL LETTER THETHE",
text! "2C93          ; Changes_When_Titlecased # L&       COPTIC SMALL LETTER IAUDA",
text! "2C95          ; Changes_When_Titlecased # L&       COPTIC SMALL LETTER KAPA",
text! "2C97          ; Changes_When_Titlecased # L&       COPTIC SMALL LETTER LAULA",
text! "2C99          ; Changes_When_Titlecased # L&       COPTIC SMALL LETTER MI",
text! "2C9B          ; Changes_When_Titlecased # L&       COPTIC SMALL LETTER NI",
text! "2C9D          ; Changes_When_Titlecased # L&       COPTIC SMALL LETTER KSI",
text! "2C9F          ; Changes_When_Titlecased # L&       COPTIC SMALL LETTER O",
text! "2CA1          ; Changes_When_Titlecased # L&       COPTIC SMALL LETTER PI",
text! "2CA3          ; Changes_When_Titlecased # L&       COPTIC SMALL LETTER RO",
text! "2CA5          ; Changes_When_Titlecased # L&       COPTIC SMALL LETTER SIMA",
text! "2CA7          ; Changes_When_Titlecased # L&       COPTIC SMALL LETTER TAU",
text! "2CA9          ; Changes_When_Titlecased # L&       COPTIC SMALL LETTER UA",
text! "2CAB          ; Changes_When_Titlecased # L&       COPTIC SMALL LETTER FI",
text! "2CAD          ; Changes_When_Titlecased # L&       COPTIC SMALL LETTER KHI",
text! "2CAF          ; Changes_When_Titlecased # L&       COPTIC SMALL LETTER PSI",
text! "2CB1          ; Changes_When_Titlecased # L&       COPTIC SMALL LETTER OOU",
text! "2CB3          ; Changes_When_Titlecased # L&       COPTIC SMALL LETTER DIALECT-P ALEF",
text! "2CB5          ; Changes_When_Titlecased # L&       COPTIC SMALL LETTER OLD COPTIC AIN",
text! "2CB7          ; Changes_When_Titlecased # L&       COPTIC SMALL LETTER CRYPTOGRAMMIC EIE",
text! "2CB9          ; Changes_When_Titlecased # L&       COPTIC SMALL LETTER DIALECT-P KAPA",
text! "2CBB          ; Changes_When_Titlecased # L&       COPTIC SMALL LETTER DIALECT-P NI",
text! "2CBD          ; Changes_When_Titlecased # L&       COPTIC SMALL LETTER CRYPTOGRAMMIC NI",
text! "2CBF          ; Changes_When_Titlecased # L&       COPTIC SMALL LETTER OLD COPTIC OOU",
text! "2CC1          ; Changes_When_Titlecased # L&       COPTIC SMALL LETTER SAMPI"]

/-- lines 5313-5376 -/
def derivedCore83 : List Nat := [
text! "2CC3          ; Changes_When_Titlecased # L&       COPTIC SMALL LETTER CROSSED SHEI",
text! "2CC5          ; Changes_When_Titlecased # L&       COPTIC SMALL LETTER OLD COPTIC SHEI",
text! "2CC7          ; Changes_When_Titlecased # L&       COPTIC SMALL LETTER OLD COPTIC ESH",
text! "2CC9          ; Changes_When_Titlecased # L&       COPTIC SMALL LETTER AKHMIMIC KHEI",
text! "2CCB          ; Changes_When_Titlecased # L&       COPTIC SMALL LETTER DIALECT-P HORI",
text! "2CCD          ; Changes_When_Titlecased # L&       COPTIC SMALL LETTER OLD COPTIC HORI",
text! "2CCF          ; Changes_When_Titlecased # L&       COPTIC SMALL LETTER OLD COPTIC HA",
text! "2CD1          ; Changes_When_Titlecased # L&       COPTIC SMALL LETTER L-SHAPED HA",
text! "2CD3          ; Changes_When_Titlecased # L&       COPTIC SMALL LETTER OLD COPTIC HEI",
text! "2CD5          ; Changes_When_Titlecased # L&       COPTIC SMALL LETTER OLD COPTIC HAT",
text! "2CD7          ; Changes_When_Titlecased # L&       COPTIC SMALL LETTER OLD COPTIC GANGIA",
text! "2CD9          ; Changes_When_Titlecased # L&       COPTIC SMALL LETTER OLD COPTIC DJA",
text! "2CDB          ; Changes_When_Titlecased # L&       COPTIC SMALL LETTER OLD COPTIC SHIMA",
text! "2CDD          ; Changes_When_Titlecased # L&       COPTIC SMALL LETTER OLD NUBIAN SHIMA",
text! "2CDF          ; Changes_When_Titlecased # L&       COPTIC SMALL LETTER OLD NUBIAN NGI",
text! "2CE1          ; Changes_When_Titlecased # L&       COPTIC SMALL LETTER OLD NUBIAN NYI",
text! "2CE3          ; Changes_When_Titlecased # L&       COPTIC SMALL LETTER OLD NUBIAN WAU",
text! "2CEC          ; Changes_When_Titlecased # L&       COPTIC SMALL LETTER CRYPTOGRAMMIC SHEI",
text! "2CEE          ; Changes_When_Titlecased # L&       COPTIC SMALL LETTER CRYPTOGRAMMIC GANGIA",
text! "2CF3          ; Changes_When_Titlecased # L&       COPTIC SMALL LETTER BOHAIRIC KHEI",
text! "2D00..2D25    ; Changes_When_Titlecased # L&  [38] GEORGIAN SMALL LETTER AN..GEORGIAN SMALL LETTER HOE",
text! "2D27          ; Changes_When_Titlecased # L&       GEORGIAN SMALL LETTER YN",
text! "2D2D          ; Changes_When_Titlecased # L&       GEORGIAN SMALL LETTER AEN",
text! "A641          ; Changes_When_Titlecased # L&       CYRILLIC SMALL LETTER ZEMLYA",
text! "A643          ; Changes_When_Titlecased # L&       CYRILLIC SMALL LETTER DZELO",
text! "A645          ; Changes_When_Titlecased # L&       CYRILLIC SMALL LETTER REVERSED DZE",
text! "A647          ; Changes_When_Titlecased # L&       CYRILLIC SMALL LETTER IOTA",
text! "A649          ; Changes_When_Titlecased # L&       CYRILLIC SMALL LETTER DJERV",
text! "A64B          ; Changes_When_Titlecased # L&       CYRILLIC SMALL LETTER MONOGRAPH UK",
text! "A64D          ; Changes_When_Titlecased # L&       CYRILLIC SMALL LETTER BROAD OMEGA",
text! "A64F          ; Changes_When_Titlecased # L&       CYRILLIC SMALL LETTER NEUTRAL YER",
text! "A651          ; Changes_When_Titlecased # L&       CYRILLIC SMALL LETTER YERU WITH BACK YER",
text! "A653          ; Changes_When_Titlecased # L&       CYRILLIC SMALL LETTER IOTIFIED YAT",
text! "A655          ; Changes_When_Titlecased # L&       CYRILLIC SMALL LETTER REVERSED YU",
text! "A657          ; Changes_When_Titlecased # L&       CYRILLIC SMALL LETTER IOTIFIED A",
text! "A659          ; Changes_When_Titlecased # L&       CYRILLIC SMALL LETTER CLOSED LITTLE YUS",
text! "A65B          ; Changes_When_Titlecased # L&       CYRILLIC SMALL LETTER BLENDED YUS",
text! "A65D          ; Changes_When_Titlecased # L&       CYRILLIC SMALL LETTER IOTIFIED CLOSED LITTLE YUS",
text! "A65F          ; Changes_When_Titlecased # L&       CYRILLIC SMALL LETTER YN",
text! "A661          ; Changes_When_Titlecased # L&       CYRILLIC SMALL LETTER REVERSED TSE",
text! "A663          ; Changes_When_Titlecased # L&       CYRILLIC SMALL LETTER SOFT DE",
text! "A665          ; Changes_When_Titlecased # L&       CYRILLIC SMALL LETTER SOFT EL",
text! "A667          ; Changes_When_Titlecased # L&       CYRILLIC SMALL LETTER SOFT EM",
text! "A669          ; Changes_When_Titlecased # L&       CYRILLIC SMALL LETTER MONOCULAR O",
text! "A66B          ; Changes_When_Titlecased # L&       CYRILLIC SMALL LETTER BINOCULAR O",
text! "A66D          ; Changes_When_Titlecased # L&       CYRILLIC SMALL LETTER DOUBLE MONOCULAR O",
text! "A681          ; Changes_When_Titlecased # L&       CYRILLIC SMALL LETTER DWE",
text! "A683          ; Changes_When_Titlecased # L&       CYRILLIC SMALL LETTER DZWE",
text! "A685          ; Changes_When_Titlecased # L&       CYRILLIC SMALL LETTER ZHWE",
text! "A687          ; Changes_When_Titlecased # L&       CYRILLIC SMALL LETTER CCHE",
text! "A689          ; Changes_When_Titlecased # L&       CYRILLIC SMALL LETTER DZZE",
text! "A68B          ; Changes_When_Titlecased # L&       CYRILLIC SMALL LETTER TE WITH MIDDLE HOOK",
text! "A68D          ; Changes_When_Titlecased # L&       CYRILLIC SMALL LETTER TWE",
text! "A68F          ; Changes_When_Titlecased # L&       CYRILLIC SMALL LETTER TSWE",
text! "A691          ; Changes_When_Titlecased # L&       CYRILLIC SMALL LETTER TSSE",
text! "A693          ; Changes_When_Titlecased # L&       CYRILLIC SMALL LETTER TCHE",
text! "A695          ; Changes_When_Titlecased # L&       CYRILLIC SMALL LETTER HWE",
text! "A697          ; Changes_When_Titlecased # L&       CYRILLIC SMALL LETTER SHWE",
text! "A699          ; Changes_When_Titlecased # L&       CYRILLIC SMALL LETTER DOUBLE O",
text! "A69B          ; Changes_When_Titlecased # L&       CYRILLIC SMALL LETTER CROSSED O",
text! "A723          ; Changes_When_Titlecased # L&       LATIN SMALL LETTER EGYPTOLOGICAL ALEF",
text! "A725          ; Changes_When_Titlecased # L&       LATIN SMALL LETTER EGYPTOLOGICAL AIN",
text! "A727          ; Changes_When_Titlecased # L&       LATIN SMALL LETTER HENG",
text! "A729          ; Changes_When_Titlecased # L&       LATIN SMALL LETTER TZ"]

/-- lines 5377-5440 -/
def derivedCore84 : List Nat := [
text! "A72B          ; Changes_When_Titlecased # L&       LATIN SMALL LETTER TRESILLO",
text! "A72D          ; Changes_When_Titlecased # L&       LATIN SMALL LETTER CUATRILLO",
text! "A72F          ; Changes_When_Titlecased # L&       LATIN SMALL LETTER CUATRILLO WITH COMMA",
text! "A733          ; Changes_When_Titlecased # L&       LATIN SMALL LETTER AA",
text! "A735          ; Changes_When_Titlecased # L&       LATIN SMALL LETTER AO",
text! "A737          ; Changes_When_Titlecased # L&       LATIN SMALL LETTER AU",
text! "A739          ; Changes_When_Titlecased # L&       LATIN SMALL LETTER AV",
text! "A73B          ; Changes_When_Titlecased # L&       LATIN SMALL LETTER AV WITH HORIZONTAL BAR",
text! "A73D          ; Changes_When_Titlecased # L&       LATIN SMALL LETTER AY",
text! "A73F          ; Changes_When_Titlecased # L&       LATIN SMALL LETTER REVERSED C WITH DOT",
text! "A741          ; Changes_When_Titlecased # L&       LATIN SMALL LETTER K WITH STROKE",
text! "A743          ; Changes_When_Titlecased # L&       LATIN SMALL LETTER K WITH DIAGONAL STROKE",
text! "A745          ; Changes_When_Titlecased # L&       LATIN SMALL LETTER K WITH STROKE AND DIAGONAL STROKE",
text! "A747          ; Changes_When_Titlecased # L&       LATIN SMALL LETTER BROKEN L",
text! "A749          ; Changes_When_Titlecased # L&       LATIN SMALL LETTER L WITH HIGH STROKE",
text! "A74B          ; Changes_When_Titlecased # L&       LATIN SMALL LETTER O WITH LONG STROKE OVERLAY",
text! "A74D          ; Changes_When_Titlecased # L&       LATIN SMALL LETTER O WITH LOOP",
text! "A74F          ; Changes_When_Titlecased # L&       LATIN SMALL LETTER OO",
text! "A751          ; Changes_When_Titlecased # L&       LATIN SMALL LETTER P WITH STROKE THROUGH DESCENDER",
text! "A753          ; Changes_When_Titlecased # L&       LATIN SMALL LETTER P WITH FLOURISH",
text! "A755          ; Changes_When_Titlecased # L&       LATIN SMALL LETTER P WITH SQUIRREL TAIL",
text! "A757          ; Changes_When_Titlecased # L&       LATIN SMALL LETTER Q WITH STROKE THROUGH DESCENDER",
text! "A759          ; Changes_When_Titlecased # L&       LATIN SMALL LETTER Q WITH DIAGONAL STROKE",
text! "A75B          ; Changes_When_Titlecased # L&       LATIN SMALL LETTER R ROTUNDA",
text! "A75D          ; Changes_When_Titlecased # L&       LATIN SMALL LETTER RUM ROTUNDA",
text! "A75F          ; Changes_When_Titlecased # L&       LATIN SMALL LETTER V WITH DIAGONAL STROKE",
text! "A761          ; Changes_When_Titlecased # L&       LATIN SMALL LETTER VY",
text! "A763          ; Changes_When_Titlecased # L&       LATIN SMALL LETTER VISIGOTHIC Z",
text! "A765          ; Changes_When_Titlecased # L&       LATIN SMALL LETTER THORN WITH STROKE",
text! "A767          ; Changes_When_Titlecased # L&       LATIN SMALL LETTER THORN WITH STROKE THROUGH DESCENDER",
text! "A769          ; Changes_When_Titlecased # L&       LATIN SMALL LETTER VEND",
text! "A76B          ; Changes_When_Titlecased # L&       LATIN SMALL LETTER ET",
text! "A76D          ; Changes_When_Titlecased # L&       LATIN SMALL LETTER IS",
text! "A76F          ; Changes_When_Titlecased # L&       LATIN SMALL LETTER CON",
text! "A77A          ; Changes_When_Titlecased # L&       LATIN SMALL LETTER INSULAR D",
text! "A77C          ; Changes_When_Titlecased # L&       LATIN SMALL LETTER INSULAR F",
text! "A77F          ; Changes_When_Titlecased # L&       LATIN SMALL LETTER TURNED INSULAR G",
text! "A781          ; Changes_When_Titlecased # L&       LATIN SMALL LETTER TURNED L",
text! "A783          ; Changes_When_Titlecased # L&       LATIN SMALL LETTER INSULAR R",
text! "A785          ; Changes_When_Titlecased # L&       LATIN SMALL LETTER INSULAR S",
text! "A787          ; Changes_When_Titlecased # L&       LATIN SMALL LETTER INSULAR T",
text! "A78C          ; Changes_When_Titlecased # L&       LATIN SMALL LETTER SALTILLO",
text! "A791          ; Changes_When_Titlecased # L&       LATIN SMALL LETTER N WITH DESCENDER",
text! "A793..A794    ; Changes_When_Titlecased # L&   [2] LATIN SMALL LETTER C WITH BAR..LATIN SMALL LETTER C WITH PALATAL HOOK",
text! "A797          ; Changes_When_Titlecased # L&       LATIN SMALL LETTER B WITH FLOURISH",
text! "A799          ; Changes_When_Titlecased # L&       LATIN SMALL LETTER F WITH STROKE",
text! "A79B          ; Changes_When_Titlecased # L&       LATIN SMALL LETTER VOLAPUK AE",
text! "A79D          ; Changes_When_Titlecased # L&       LATIN SMALL LETTER VOLAPUK OE",
text! "A79F          ; Changes_When_Titlecased # L&       LATIN SMALL LETTER VOLAPUK UE",
text! "A7A1          ; Changes_When_Titlecased # L&       LATIN SMALL LETTER G WITH OBLIQUE STROKE",
text! "A7A3          ; Changes_When_Titlecased # L&       LATIN SMALL LETTER K WITH OBLIQUE STROKE",
text! "A7A5          ; Changes_When_Titlecased # L&       LATIN SMALL LETTER N WITH OBLIQUE STROKE",
text! "A7A7          ; Changes_When_Titlecased # L&       LATIN SMALL LETTER R WITH OBLIQUE STROKE",
text! "A7A9          ; Changes_When_Titlecased # L&       LATIN SMALL LETTER S WITH OBLIQUE STROKE",
text! "A7B5          ; Changes_When_Titlecased # L&       LATIN SMALL LETTER BETA",
text! "A7B7          ; Changes_When_Titlecased # L&       LATIN SMALL LETTER OMEGA",
text! "A7B9          ; Changes_When_Titlecased # L&       LATIN SMALL LETTER U WITH STROKE",
text! "A7BB          ; Changes_When_Titlecased # L&       LATIN SMALL LETTER GLOTTAL A",
text! "A7BD          ; Changes_When_Titlecased # L&       LATIN SMALL LETTER GLOTTAL I",
text! "A7BF          ; Changes_When_Titlecased # L&       LATIN SMALL LETTER GLOTTAL U",
text! "A7C1          ; Changes_When_Titlecased # L&       LATIN SMALL LETTER OLD POLISH O",
text! "A7C3          ; Changes_When_Titlecased # L&       LATIN SMALL LETTER ANGLICANA W",
text! "A7C8          ; Changes_When_Titlecased # L&       LATIN SMALL LETTER D WITH SHORT STROKE OVERLAY",
text! "A7CA          ; Changes_When_Titlecased # L&       LATIN SMALL LETTER S WITH SHORT STROKE OVERLAY"]

/-- lines 5441-5504 -/
def derivedCore85 : List Nat := [
text! "A7CD          ; Changes_When_Titlecased # L&       LATIN SMALL LETTER S WITH DIAGONAL STROKE",
text! "A7CF          ; Changes_When_Titlecased # L&       LATIN SMALL LETTER PHARYNGEAL VOICED FRICATIVE",
text! "A7D1          ; Changes_When_Titlecased # L&       LATIN SMALL LETTER CLOSED INSULAR G",
text! "A7D3          ; Changes_When_Titlecased # L&       LATIN SMALL LETTER DOUBLE THORN",
text! "A7D5          ; Changes_When_Titlecased # L&       LATIN SMALL LETTER DOUBLE WYNN",
text! "A7D7          ; Changes_When_Titlecased # L&       LATIN SMALL LETTER MIDDLE SCOTS S",
text! "A7D9          ; Changes_When_Titlecased # L&       LATIN SMALL LETTER SIGMOID S",
text! "A7DB          ; Changes_When_Titlecased # L&       LATIN SMALL LETTER LAMBDA",
text! "A7F6          ; Changes_When_Titlecased # L&       LATIN SMALL LETTER REVERSED HALF H",
text! "AB53          ; Changes_When_Titlecased # L&       LATIN SMALL LETTER CHI",
text! "AB70..ABBF    ; Changes_When_Titlecased # L&  [80] CHEROKEE SMALL LETTER A..CHEROKEE SMALL LETTER YA",
text! "FB00..FB06    ; Changes_When_Titlecased # L&   [7] LATIN SMALL LIGATURE FF..LATIN SMALL LIGATURE ST",
text! "FB13..FB17    ; Changes_When_Titlecased # L&   [5] ARMENIAN SMALL LIGATURE MEN NOW..ARMENIAN SMALL LIGATURE MEN XEH",
text! "FF41..FF5A    ; Changes_When_Titlecased # L&  [26] FULLWIDTH LATIN SMALL LETTER A..FULLWIDTH LATIN SMALL LETTER Z",
text! "10428..1044F  ; Changes_When_Titlecased # L&  [40] DESERET SMALL LETTER LONG I..DESERET SMALL LETTER EW",
text! "104D8..104FB  ; Changes_When_Titlecased # L&  [36] OSAGE SMALL LETTER A..OSAGE SMALL LETTER ZHA",
text! "10597..105A1  ; Changes_When_Titlecased # L&  [11] VITHKUQI SMALL LETTER A..VITHKUQI SMALL LETTER GA",
text! "105A3..105B1  ; Changes_When_Titlecased # L&  [15] VITHKUQI SMALL LETTER HA..VITHKUQI SMALL LETTER RE",
text! "105B3..105B9  ; Changes_When_Titlecased # L&   [7] VITHKUQI SMALL LETTER SE..VITHKUQI SMALL LETTER XE",
text! "105BB..105BC  ; Changes_When_Titlecased # L&   [2] VITHKUQI SMALL LETTER Y..VITHKUQI SMALL LETTER ZE",
text! "10CC0..10CF2  ; Changes_When_Titlecased # L&  [51] OLD HUNGARIAN SMALL LETTER A..OLD HUNGARIAN SMALL LETTER US",
text! "10D70..10D85  ; Changes_When_Titlecased # L&  [22] GARAY SMALL LETTER A..GARAY SMALL LETTER OLD NA",
text! "118C0..118DF  ; Changes_When_Titlecased # L&  [32] WARANG CITI SMALL LETTER NGAA..WARANG CITI SMALL LETTER VIYO",
text! "16E60..16E7F  ; Changes_When_Titlecased # L&  [32] MEDEFAIDRIN SMALL LETTER M..MEDEFAIDRIN SMALL LETTER Y",
text! "16EBB..16ED3  ; Changes_When_Titlecased # L&  [25] BERIA ERFE SMALL LETTER ARKAB..BERIA ERFE SMALL LETTER AY",
text! "1E922..1E943  ; Changes_When_Titlecased # L&  [34] ADLAM SMALL LETTER ALIF..ADLAM SMALL LETTER SHA",
text! "",
text! "# Total code points: 1507",
text! "",
text! "# ================================================",
text! "",
text! "# Derived Property:   Changes_When_Casefolded (CWCF)",
text! "#  Characters whose normalized forms are not stable under case folding.",
text! "#  For more information, see the definition of \"isCasefolded(X)\"",
text! "#  in the \"Conformance\" / \"Default Case Algorithms\" section of the core specification.",
text! "#  Changes_When_Casefolded(X) is true when toCasefold(toNFD(X)) != toNFD(X)",
text! "",
text! "0041..005A    ; Changes_When_Casefolded # L&  [26] LATIN CAPITAL LETTER A..LATIN CAPITAL LETTER Z",
text! "00B5          ; Changes_When_Casefolded # L&       MICRO SIGN",
text! "00C0..00D6    ; Changes_When_Casefolded # L&  [23] LATIN CAPITAL LETTER A WITH GRAVE..LATIN CAPITAL LETTER O WITH DIAERESIS",
text! "00D8..00DF    ; Changes_When_Casefolded # L&   [8] LATIN CAPITAL LETTER O WITH STROKE..LATIN SMALL LETTER SHARP S",
text! "0100          ; Changes_When_Casefolded # L&       LATIN CAPITAL LETTER A WITH MACRON",
text! "0102          ; Changes_When_Casefolded # L&       LATIN CAPITAL LETTER A WITH BREVE",
text! "0104          ; Changes_When_Casefolded # L&       LATIN CAPITAL LETTER A WITH OGONEK",
text! "0106          ; Changes_When_Casefolded # L&       LATIN CAPITAL LETTER C WITH ACUTE",
text! "0108          ; Changes_When_Casefolded # L&       LATIN CAPITAL LETTER C WITH CIRCUMFLEX",
text! "010A          ; Changes_When_Casefolded # L&       LATIN CAPITAL LETTER C WITH DOT ABOVE",
text! "010C          ; Changes_When_Casefolded # L&       LATIN CAPITAL LETTER C WITH CARON",
text! "010E          ; Changes_When_Casefolded # L&       LATIN CAPITAL LETTER D WITH CARON",
text! "0110          ; Changes_When_Casefolded # L&       LATIN CAPITAL LETTER D WITH STROKE",
text! "0112          ; Changes_When_Casefolded # L&       LATIN CAPITAL LETTER E WITH MACRON",
text! "0114          ; Changes_When_Casefolded # L&       LATIN CAPITAL LETTER E WITH BREVE",
text! "0116          ; Changes_When_Casefolded # L&       LATIN CAPITAL LETTER E WITH DOT ABOVE",
text! "0118          ; Changes_When_Casefolded # L&       LATIN CAPITAL LETTER E WITH OGONEK",
text! "011A          ; Changes_When_Casefolded # L&       LATIN CAPITAL LETTER E WITH CARON",
text! "011C          ; Changes_When_Casefolded # L&       LATIN CAPITAL LETTER G WITH CIRCUMFLEX",
text! "011E          ; Changes_When_Casefolded # L&       LATIN CAPITAL LETTER G WITH BREVE",
text! "0120          ; Changes_When_Casefolded # L&       LATIN CAPITAL LETTER G WITH DOT ABOVE",
text! "0122          ; Changes_When_Casefolded # L&       LATIN CAPITAL LETTER G WITH CEDILLA",
text! "0124          ; Changes_When_Casefolded # L&       LATIN CAPITAL LETTER H WITH CIRCUMFLEX",
text! "0126          ; Changes_When_Casefolded # L&       LATIN CAPITAL LETTER H WITH STROKE",
text! "0128          ; Changes_When_Casefolded # L&       LATIN CAPITAL LETTER I WITH TILDE",
text! "012A          ; Changes_When_Casefolded # L&       LATIN CAPITAL LETTER I WITH MACRON",
text! "012C          ; Changes_When_Casefolded # L&       LATIN CAPITAL LETTER I WITH BREVE"]

/-- lines 5505-5568 -/
def derivedCore86 : List Nat := [
text! "012E          ; Changes_When_Casefolded # L&       LATIN CAPITAL LETTER I WITH OGONEK",
text! "0130          ; Changes_When_Casefolded # L&       LATIN CAPITAL LETTER I WITH DOT ABOVE",
text! "0132          ; Changes_When_Casefolded # L&       LATIN CAPITAL LIGATURE IJ",
text! "0134          ; Changes_When_Casefolded # L&       LATIN CAPITAL LETTER J WITH CIRCUMFLEX",
text! "0136          ; Changes_When_Casefolded # L&       LATIN CAPITAL LETTER K WITH CEDILLA",
text! "0139          ; Changes_When_Casefolded # L&       LATIN CAPITAL LETTER L WITH ACUTE",
text! "013B          ; Changes_When_Casefolded # L&       LATIN CAPITAL LETTER L WITH CEDILLA",
text! "013D          ; Changes_When_Casefolded # L&       LATIN CAPITAL LETTER L WITH CARON",
text! "013F          ; Changes_When_Casefolded # L&       LATIN CAPITAL LETTER L WITH MIDDLE DOT",
text! "0141          ; Changes_When_Casefolded # L&       LATIN CAPITAL LETTER L WITH STROKE",
text! "0143          ; Changes_When_Casefolded # L&       LATIN CAPITAL LETTER N WITH ACUTE",
text! "0145          ; Changes_When_Casefolded # L&       LATIN CAPITAL LETTER N WITH CEDILLA",
text! "0147          ; Changes_When_Casefolded # L&       LATIN CAPITAL LETTER N WITH CARON",
text! "0149..014A    ; Changes_When_Casefolded # L&   [2] LATIN SMALL LETTER N PRECEDED BY APOSTROPHE..LATIN CAPITAL LETTER ENG",
text! "014C          ; Changes_When_Casefolded # L&       LATIN CAPITAL LETTER O WITH MACRON",
text! "014E          ; Changes_When_Casefolded # L&       LATIN CAPITAL LETTER O WITH BREVE",
text! "0150          ; Changes_When_Casefolded # L&       LATIN CAPITAL LETTER O WITH DOUBLE ACUTE",
text! "0152          ; Changes_When_Casefolded # L&       LATIN CAPITAL LIGATURE OE",
text! "0154          ; Changes_When_Casefolded # L&       LATIN CAPITAL LETTER R WITH ACUTE",
text! "0156          ; Changes_When_Casefolded # L&       LATIN CAPITAL LETTER R WITH CEDILLA",
text! "0158          ; Changes_When_Casefolded # L&       LATIN CAPITAL LETTER R WITH CARON",
text! "015A          ; Changes_When_Casefolded # L&       LATIN CAPITAL LETTER S WITH ACUTE",
text! "015C          ; Changes_When_Casefolded # L&       LATIN CAPITAL LETTER S WITH CIRCUMFLEX",
text! "015E          ; Changes_When_Casefolded # L&       LATIN CAPITAL LETTER S WITH CEDILLA",
text! "0160          ; Changes_When_Casefolded # L&       LATIN CAPITAL LETTER S WITH CARON",
text! "0162          ; Changes_When_Casefolded # L&       LATIN CAPITAL LETTER T WITH CEDILLA",
text! "0164          ; Changes_When_Casefolded # L&       LATIN CAPITAL LETTER T WITH CARON",
text! "0166          ; Changes_When_Casefolded # L&       LATIN CAPITAL LETTER T WITH STROKE",
text! "0168          ; Changes_When_Casefolded # L&       LATIN CAPITAL LETTER U WITH TILDE",
text! "016A          ; Changes_When_Casefolded # L&       LATIN CAPITAL LETTER U WITH MACRON",
text! "016C          ; Changes_When_Casefolded # L&       LATIN CAPITAL LETTER U WITH BREVE",
text! "016E          ; Changes_When_Casefolded # L&       LATIN CAPITAL LETTER U WITH RING ABOVE",
text! "0170          ; Changes_When_Casefolded # L&       LATIN CAPITAL LETTER U WITH DOUBLE ACUTE",
text! "0172          ; Changes_When_Casefolded # L&       LATIN CAPITAL LETTER U WITH OGONEK",
text! "0174          ; Changes_When_Casefolded # L&       LATIN CAPITAL LETTER W WITH CIRCUMFLEX",
text! "0176          ; Changes_When_Casefolded # L&       LATIN CAPITAL LETTER Y WITH CIRCUMFLEX",
text! "0178..0179    ; Changes_When_Casefolded # L&   [2] LATIN CAPITAL LETTER Y WITH DIAERESIS..LATIN CAPITAL LETTER Z WITH ACUTE",
text! "017B          ; Changes_When_Casefolded # L&       LATIN CAPITAL LETTER Z WITH DOT ABOVE",
text! "017D          ; Changes_When_Casefolded # L&       LATIN CAPITAL LETTER Z WITH CARON",
text! "017F          ; Changes_When_Casefolded # L&       LATIN SMALL LETTER LONG S",
text! "0181..0182    ; Changes_When_Casefolded # L&   [2] LATIN CAPITAL LETTER B WITH HOOK..LATIN CAPITAL LETTER B WITH TOPBAR",
text! "0184          ; Changes_When_Casefolded # L&       LATIN CAPITAL LETTER TONE SIX",
text! "0186..0187    ; Changes_When_Casefolded # L&   [2] LATIN CAPITAL LETTER OPEN O..LATIN CAPITAL LETTER C WITH HOOK",
text! "0189..018B    ; Changes_When_Casefolded # L&   [3] LATIN CAPITAL LETTER AFRICAN D..LATIN CAPITAL LETTER D WITH TOPBAR",
text! "018E..0191    ; Changes_When_Casefolded # L&   [4] LATIN CAPITAL LETTER REVERSED E..LATIN CAPITAL LETTER F WITH HOOK",
text! "0193..0194    ; Changes_When_Casefolded # L&   [2] LATIN CAPITAL LETTER G WITH HOOK..LATIN CAPITAL LETTER GAMMA",
text! "0196..0198    ; Changes_When_Casefolded # L&   [3] LATIN CAPITAL LETTER IOTA..LATIN CAPITAL LETTER K WITH HOOK",
text! "019C..019D    ; Changes_When_Casefolded # L&   [2] LATIN CAPITAL LETTER TURNED M..LATIN CAPITAL LETTER N WITH LEFT HOOK",
text! "019F..01A0    ; Changes_When_Casefolded # L&   [2] LATIN CAPITAL LETTER O WITH MIDDLE TILDE..LATIN CAPITAL LETTER O WITH HORN",
text! "01A2          ; Changes_When_Casefolded # L&       LATIN CAPITAL LETTER OI",
text! "01A4          ; Changes_When_Casefolded # L&       LATIN CAPITAL LETTER P WITH HOOK",
text! "01A6..01A7    ; Changes_When_Casefolded # L&   [2] LATIN LETTER YR..LATIN CAPITAL LETTER TONE TWO",
text! "01A9          ; Changes_When_Casefolded # L&       LATIN CAPITAL LETTER ESH",
text! "01AC          ; Changes_When_Casefolded # L&       LATIN CAPITAL LETTER T WITH HOOK",
text! "01AE..01AF    ; Changes_When_Casefolded # L&   [2] LATIN CAPITAL LETTER T WITH RETROFLEX HOOK..LATIN CAPITAL LETTER U WITH HORN",
text! "01B1..01B3    ; Changes_When_Casefolded # L&   [3] LATIN CAPITAL LETTER UPSILON..LATIN CAPITAL LETTER Y WITH HOOK",
text! "01B5          ; Changes_When_Casefolded # L&       LATIN CAPITAL LETTER Z WITH STROKE",
text! "01B7..01B8    ; Changes_When_Casefolded # L&   [2] LATIN CAPITAL LETTER EZH..LATIN CAPITAL LETTER EZH REVERSED",
text! "01BC          ; Changes_When_Casefolded # L&       LATIN CAPITAL LETTER TONE FIVE",
text! "01C4..01C5    ; Changes_When_Casefolded # L&   [2] LATIN CAPITAL LETTER DZ WITH CARON..LATIN CAPITAL LETTER D WITH SMALL LETTER Z WITH CARON",
text! "01C7..01C8    ; Changes_When_Casefolded # L&   [2] LATIN CAPITAL LETTER LJ..LATIN CAPITAL LETTER L WITH SMALL LETTER J",
text! "01CA..01CB    ; Changes_When_Casefolded # L&   [2] LATIN CAPITAL LETTER NJ..LATIN CAPITAL LETTER N WITH SMALL LETTER J",
text! "01CD          ; Changes_When_Casefolded # L&       LATIN CAPITAL LETTER A WITH CARON",
text! "01CF          ; Changes_When_Casefolded # L&       LATIN CAPITAL LETTER I WITH CARON"]

/-- lines 5569-5632 -/
def derivedCore87 : List Nat := [
text! "01D1          ; Changes_When_Casefolded # L&       LATIN CAPITAL LETTER O WITH CARON",
text! "01D3          ; Changes_When_Casefolded # L&       LATIN CAPITAL LETTER U WITH CARON",
text! "01D5          ; Changes_When_Casefolded # L&       LATIN CAPITAL LETTER U WITH DIAERESIS AND MACRON",
text! "01D7          ; Changes_When_Casefolded # L&       LATIN CAPITAL LETTER U WITH DIAERESIS AND ACUTE",
text! "01D9          ; Changes_When_Casefolded # L&       LATIN CAPITAL LETTER U WITH DIAERESIS AND CARON",
text! "01DB          ; Changes_When_Casefolded # L&       LATIN CAPITAL LETTER U WITH DIAERESIS AND GRAVE",
text! "01DE          ; Changes_When_Casefolded # L&       LATIN CAPITAL LETTER A WITH DIAERESIS AND MACRON",
text! "01E0          ; Changes_When_Casefolded # L&       LATIN CAPITAL LETTER A WITH DOT ABOVE AND MACRON",
text! "01E2          ; Changes_When_Casefolded # L&       LATIN CAPITAL LETTER AE WITH MACRON",
text! "01E4          ; Changes_When_Casefolded # L&       LATIN CAPITAL LETTER G WITH STROKE",
text! "01E6          ; Changes_When_Casefolded # L&       LATIN CAPITAL LETTER G WITH CARON",
text! "01E8          ; Changes_When_Casefolded # L&       LATIN CAPITAL LETTER K WITH CARON",
text! "01EA          ; Changes_When_Casefolded # L&       LATIN CAPITAL LETTER O WITH OGONEK",
text! "01EC          ; Changes_When_Casefolded # L&       LATIN CAPITAL LETTER O WITH OGONEK AND MACRON",
text! "01EE          ; Changes_When_Casefolded # L&       LATIN CAPITAL LETTER EZH WITH CARON",
text! "01F1..01F2    ; Changes_When_Casefolded # L&   [2] LATIN CAPITAL LETTER DZ..LATIN CAPITAL LETTER D WITH SMALL LETTER Z",
text! "01F4          ; Changes_When_Casefolded # L&       LATIN CAPITAL LETTER G WITH ACUTE",
text! "01F6..01F8    ; Changes_When_Casefolded # L&   [3] LATIN CAPITAL LETTER HWAIR..LATIN CAPITAL LETTER N WITH GRAVE",
text! "01FA          ; Changes_When_Casefolded # L&       LATIN CAPITAL LETTER A WITH RING ABOVE AND ACUTE",
text! "01FC          ; Changes_When_Casefolded # L&       LATIN CAPITAL LETTER AE WITH ACUTE",
text! "01FE          ; Changes_When_Casefolded # L&       LATIN CAPITAL LETTER O WITH STROKE AND ACUTE",
text! "0200          ; Changes_When_Casefolded # L&       LATIN CAPITAL LETTER A WITH DOUBLE GRAVE",
text! "0202          ; Changes_When_Casefolded # L&       LATIN CAPITAL LETTER A WITH INVERTED BREVE",
text! "0204          ; Changes_When_Casefolded # L&       LATIN CAPITAL LETTER E WITH DOUBLE GRAVE",
text! "0206          ; Changes_When_Casefolded # L&       LATIN CAPITAL LETTER E WITH INVERTED BREVE",
text! "0208          ; Changes_When_Casefolded # L&       LATIN CAPITAL LETTER I WITH DOUBLE GRAVE",
text! "020A          ; Changes_When_Casefolded # L&       LATIN CAPITAL LETTER I WITH INVERTED BREVE",
text! "020C          ; Changes_When_Casefolded # L&       LATIN CAPITAL LETTER O WITH DOUBLE GRAVE",
text! "020E          ; Changes_When_Casefolded # L&       LATIN CAPITAL LETTER O WITH INVERTED BREVE",
text! "0210          ; Changes_When_Casefolded # L&       LATIN CAPITAL LETTER R WITH DOUBLE GRAVE",
text! "0212          ; Changes_When_Casefolded # L&       LATIN CAPITAL LETTER R WITH INVERTED BREVE",
text! "0214          ; Changes_When_Casefolded # L&       LATIN CAPITAL LETTER U WITH DOUBLE GRAVE",
text! "0216          ; Changes_When_Casefolded # L&       LATIN CAPITAL LETTER U WITH INVERTED BREVE",
text! "0218          ; Changes_When_Casefolded # L&       LATIN CAPITAL LETTER S WITH COMMA BELOW",
text! "021A          ; Changes_When_Casefolded # L&       LATIN CAPITAL LETTER T WITH COMMA BELOW",
text! "021C          ; Changes_When_Casefolded # L&       LATIN CAPITAL LETTER YOGH",
text! "021E          ; Changes_When_Casefolded # L&       LATIN CAPITAL LETTER H WITH CARON",
text! "0220          ; Changes_When_Casefolded # L&       LATIN CAPITAL LETTER N WITH LONG RIGHT LEG",
text! "0222          ; Changes_When_Casefolded # L&       LATIN CAPITAL LETTER OU",
text! "0224          ; Changes_When_Casefolded # L&       LATIN CAPITAL LETTER Z WITH HOOK",
text! "0226          ; Changes_When_Casefolded # L&       LATIN CAPITAL LETTER A WITH DOT ABOVE",
text! "0228          ; Changes_When_Casefolded # L&       LATIN CAPITAL LETTER E WITH CEDILLA",
text! "022A          ; Changes_When_Casefolded # L&       LATIN CAPITAL LETTER O WITH DIAERESIS AND MACRON",
text! "022C          ; Changes_When_Casefolded # L&       LATIN CAPITAL LETTER O WITH TILDE AND MACRON",
text! "022E          ; Changes_When_Casefolded # L&       LATIN CAPITAL LETTER O WITH DOT ABOVE",
text! "0230          ; Changes_When_Casefolded # L&       LATIN CAPITAL LETTER O WITH DOT ABOVE AND MACRON",
text! "0232          ; Changes_When_Casefolded # L&       LATIN CAPITAL LETTER Y WITH MACRON",
text! "023A..023B    ; Changes_When_Casefolded # L&   [2] LATIN CAPITAL LETTER A WITH STROKE..LATIN CAPITAL LETTER C WITH STROKE",
text! "023D..023E    ; Changes_When_Casefolded # L&   [2] LATIN CAPITAL LETTER L WITH BAR..LATIN CAPITAL LETTER T WITH DIAGONAL STROKE",
text! "0241          ; Changes_When_Casefolded # L&       LATIN CAPITAL LETTER GLOTTAL STOP",
text! "0243..0246    ; Changes_When_Casefolded # L&   [4] LATIN CAPITAL LETTER B WITH STROKE..LATIN CAPITAL LETTER E WITH STROKE",
text! "0248          ; Changes_When_Casefolded # L&       LATIN CAPITAL LETTER J WITH STROKE",
text! "024A          ; Changes_When_Casefolded # L&       LATIN CAPITAL LETTER SMALL Q WITH HOOK TAIL",
text! "024C          ; Changes_When_Casefolded # L&       LATIN CAPITAL LETTER R WITH STROKE",
text! "024E          ; Changes_When_Casefolded # L&       LATIN CAPITAL LETTER Y WITH STROKE",
text! "0345          ; Changes_When_Casefolded # Mn       COMBINING GREEK YPOGEGRAMMENI",
text! "0370          ; Changes_When_Casefolded # L&       GREEK CAPITAL LETTER HETA",
text! "0372          ; Changes_When_Casefolded # L&       GREEK CAPITAL LETTER ARCHAIC SAMPI",
text! "0376          ; Changes_When_Casefolded # L&       GREEK CAPITAL LETTER PAMPHYLIAN DIGAMMA",
text! "037F          ; Changes_When_Casefolded # L&       GREEK CAPITAL LETTER YOT",
text! "0386          ; Changes_When_Casefolded # L&       GREEK CAPITAL LETTER ALPHA WITH TONOS",
text! "0388..038A    ; Changes_When_Casefolded # L&   [3] GREEK CAPITAL LETTER EPSILON WITH TONOS..GREEK CAPITAL LETTER IOTA WITH TONOS",
text! "038C          ; Changes_When_Casefolded # L&       GREEK CAPITAL LETTER OMICRON WITH TONOS",
text! "038E..038F    ; Changes_When_Casefolded # L&   [2] GREEK CAPITAL LETTER UPSILON WITH TONOS..GREEK CAPITAL LETTER OMEGA WITH TONOS"]

/-- lines 5633-5696 -/
def derivedCore88 : List Nat := [
text! "0391..03A1    ; Changes_When_Casefolded # L&  [17] GREEK CAPITAL LETTER ALPHA..GREEK CAPITAL LETTER RHO",
text! "03A3..03AB    ; Changes_When_Casefolded # L&   [9] GREEK CAPITAL LETTER SIGMA..GREEK CAPITAL LETTER UPSILON WITH DIALYTIKA",
text! "03C2          ; Changes_When_Casefolded # L&       GREEK SMALL LETTER FINAL SIGMA",
text! "03CF..03D1    ; Changes_When_Casefolded # L&   [3] GREEK CAPITAL KAI SYMBOL..GREEK THETA SYMBOL",
text! "03D5..03D6    ; Changes_When_Casefolded # L&   [2] GREEK PHI SYMBOL..GREEK PI SYMBOL",
text! "03D8          ; Changes_When_Casefolded # L&       GREEK LETTER ARCHAIC KOPPA",
text! "03DA          ; Changes_When_Casefolded # L&       GREEK LETTER STIGMA",
text! "03DC          ; Changes_When_Casefolded # L&       GREEK LETTER DIGAMMA",
text! "03DE          ; Changes_When_Casefolded # L&       GREEK LETTER KOPPA",
text! "03E0          ; Changes_When_Casefolded # L&       GREEK LETTER SAMPI",
text! "03E2          ; Changes_When_Casefolded # L&       COPTIC CAPITAL LETTER SHEI",
text! "03E4          ; Changes_When_Casefolded # L&       COPTIC CAPITAL LETTER FEI",
text! "03E6          ; Changes_When_Casefolded # L&       COPTIC CAPITAL LETTER KHEI",
text! "03E8          ; Changes_When_Casefolded # L&       COPTIC CAPITAL LETTER HORI",
text! "03EA          ; Changes_When_Casefolded # L&       COPTIC CAPITAL LETTER GANGIA",
text! "03EC          ; Changes_When_Casefolded # L&       COPTIC CAPITAL LETTER SHIMA",
text! "03EE          ; Changes_When_Casefolded # L&       COPTIC CAPITAL LETTER DEI",
text! "03F0..03F1    ; Changes_When_Casefolded # L&   [2] GREEK KAPPA SYMBOL..GREEK RHO SYMBOL",
text! "03F4..03F5    ; Changes_When_Casefolded # L&   [2] GREEK CAPITAL THETA SYMBOL..GREEK LUNATE EPSILON SYMBOL",
text! "03F7          ; Changes_When_Casefolded # L&       GREEK CAPITAL LETTER SHO",
text! "03F9..03FA    ; Changes_When_Casefolded # L&   [2] GREEK CAPITAL LUNATE SIGMA SYMBOL..GREEK CAPITAL LETTER SAN",
text! "03FD..042F    ; Changes_When_Casefolded # L&  [51] GREEK CAPITAL REVERSED LUNATE SIGMA SYMBOL..CYRILLIC CAPITAL LETTER YA",
text! "0460          ; Changes_When_Casefolded # L&       CYRILLIC CAPITAL LETTER OMEGA",
text! "0462          ; Changes_When_Casefolded # L&       CYRILLIC CAPITAL LETTER YAT",
text! "0464          ; Changes_When_Casefolded # L&       CYRILLIC CAPITAL LETTER IOTIFIED E",
text! "0466          ; Changes_When_Casefolded # L&       CYRILLIC CAPITAL LETTER LITTLE YUS",
text! "0468          ; Changes_When_Casefolded # L&       CYRILLIC CAPITAL LETTER IOTIFIED LITTLE YUS",
text! "046A          ; Changes_When_Casefolded # L&       CYRILLIC CAPITAL LETTER BIG YUS",
text! "046C          ; Changes_When_Casefolded # L&       CYRILLIC CAPITAL LETTER IOTIFIED BIG YUS",
text! "046E          ; Changes_When_Casefolded # L&       CYRILLIC CAPITAL LETTER KSI",
text! "0470          ; Changes_When_Casefolded # L&       CYRILLIC CAPITAL LETTER PSI",
text! "0472          ; Changes_When_Casefolded # L&       CYRILLIC CAPITAL LETTER FITA",
text! "0474          ; Changes_When_Casefolded # L&       CYRILLIC CAPITAL LETTER IZHITSA",
text! "0476          ; Changes_When_Casefolded # L&       CYRILLIC CAPITAL LETTER IZHITSA WITH DOUBLE GRAVE ACCENT",
text! "0478          ; Changes_When_Casefolded # L&       CYRILLIC CAPITAL LETTER UK",
text! "047A          ; Changes_When_Casefolded # L&       CYRILLIC CAPITAL LETTER ROUND OMEGA",
text! "047C          ; Changes_When_Casefolded # L&       CYRILLIC CAPITAL LETTER OMEGA WITH TITLO",
text! "047E          ; Changes_When_Casefolded # L&       CYRILLIC CAPITAL LETTER OT",
text! "0480          ; Changes_When_Casefolded # L&       CYRILLIC CAPITAL LETTER KOPPA",
text! "048A          ; Changes_When_Casefolded # L&       CYRILLIC CAPITAL LETTER SHORT I WITH TAIL",
text! "048C          ; Changes_When_Casefolded # L&       CYRILLIC CAPITAL LETTER SEMISOFT SIGN",
text! "048E          ; Changes_When_Casefolded # L&       CYRILLIC CAPITAL LETTER ER WITH TICK",
text! "0490          ; Changes_When_Casefolded # L&       CYRILLIC CAPITAL LETTER GHE WITH UPTURN",
text! "0492          ; Changes_When_Casefolded # L&       CYRILLIC CAPITAL LETTER GHE WITH STROKE",
text! "0494          ; Changes_When_Casefolded # L&       CYRILLIC CAPITAL LETTER GHE WITH MIDDLE HOOK",
text! "0496          ; Changes_When_Casefolded # L&       CYRILLIC CAPITAL LETTER ZHE WITH DESCENDER",
text! "0498          ; Changes_When_Casefolded # L&       CYRILLIC CAPITAL LETTER ZE WITH DESCENDER",
text! "049A          ; Changes_When_Casefolded # L&       CYRILLIC CAPITAL LETTER KA WITH DESCENDER",
text! "049C          ; Changes_When_Casefolded # L&       CYRILLIC CAPITAL LETTER KA WITH VERTICAL STROKE",
text! "049E          ; Changes_When_Casefolded # L&       CYRILLIC CAPITAL LETTER KA WITH STROKE",
text! "04A0          ; Changes_When_Casefolded # L&       CYRILLIC CAPITAL LETTER BASHKIR KA",
text! "04A2          ; Changes_When_Casefolded # L&       CYRILLIC CAPITAL LETTER EN WITH DESCENDER",
text! "04A4          ; Changes_When_Casefolded # L&       CYRILLIC CAPITAL LIGATURE EN GHE",
text! "04A6          ; Changes_When_Casefolded # L&       CYRILLIC CAPITAL LETTER PE WITH MIDDLE HOOK",
text! "04A8          ; Changes_When_Casefolded # L&       CYRILLIC CAPITAL LETTER ABKHASIAN HA",
text! "04AA          ; Changes_When_Casefolded # L&       CYRILLIC CAPITAL LETTER ES WITH DESCENDER",
text! "04AC          ; Changes_When_Casefolded # L&       CYRILLIC CAPITAL LETTER TE WITH DESCENDER",
text! "04AE          ; Changes_When_Casefolded # L&       CYRILLIC CAPITAL LETTER STRAIGHT U",
text! "04B0          ; Changes_When_Casefolded # L&       CYRILLIC CAPITAL LETTER STRAIGHT U WITH STROKE",
text! "04B2          ; Changes_When_Casefolded # L&       CYRILLIC CAPITAL LETTER HA WITH DESCENDER",
text! "04B4          ; Changes_When_Casefolded # L&       CYRILLIC CAPITAL LIGATURE TE TSE",
text! "04B6          ; Changes_When_Casefolded # L&       CYRILLIC CAPITAL LETTER CHE WITH DESCENDER",
text! "04B8          ; Changes_When_Casefolded # L&       CYRILLIC CAPITAL LETTER CHE WITH VERTICAL STROKE",
text! "04BA          ; Changes_When_Casefolded # L&       CYRILLIC CAPITAL LETTER SHHA"]

/-- lines 5697-5760 -/
def derivedCore89 : List Nat := [
text! "04BC          ; Changes_When_Casefolded # L&       CYRILLIC CAPITAL LETTER ABKHASIAN CHE",
text! "04BE          ; Changes_When_Casefolded # L&       CYRILLIC CAPITAL LETTER ABKHASIAN CHE WITH DESCENDER",
text! "04C0..04C1    ; Changes_When_Casefolded # L&   [2] CYRILLIC LETTER PALOCHKA..CYRILLIC CAPITAL LETTER ZHE WITH BREVE",
text! "04C3          ; Changes_When_Casefolded # L&       CYRILLIC CAPITAL LETTER KA WITH HOOK",
text! "04C5          ; Changes_When_Casefolded # L&       CYRILLIC CAPITAL LETTER EL WITH TAIL",
text! "04C7          ; Changes_When_Casefolded # L&       CYRILLIC CAPITAL LETTER EN WITH HOOK",
text! "04C9          ; Changes_When_Casefolded # L&       CYRILLIC CAPITAL LETTER EN WITH TAIL",
text! "04CB          ; Changes_When_Casefolded # L&       CYRILLIC CAPITAL LETTER KHAKASSIAN CHE",
text! "04CD          ; Changes_When_Casefolded # L&       CYRILLIC CAPITAL LETTER EM WITH TAIL",
text! "04D0          ; Changes_When_Casefolded # L&       CYRILLIC CAPITAL LETTER A WITH BREVE",
text! "04D2          ; Changes_When_Casefolded # L&       CYRILLIC CAPITAL LETTER A WITH DIAERESIS",
text! "04D4          ; Changes_When_Casefolded # L&       CYRILLIC CAPITAL LIGATURE A IE",
text! "04D6          ; Changes_When_Casefolded # L&       CYRILLIC CAPITAL LETTER IE WITH BREVE",
text! "04D8          ; Changes_When_Casefolded # L&       CYRILLIC CAPITAL LETTER SCHWA",
text! "04DA          ; Changes_When_Casefolded # L&       CYRILLIC CAPITAL LETTER SCHWA WITH DIAERESIS",
text! "04DC          ; Changes_When_Casefolded # L&       CYRILLIC CAPITAL LETTER ZHE WITH DIAERESIS",
text! "04DE          ; Changes_When_Casefolded # L&       CYRILLIC CAPITAL LETTER ZE WITH DIAERESIS",
text! "04E0          ; Changes_When_Casefolded # L&       CYRILLIC CAPITAL LETTER ABKHASIAN DZE",
text! "04E2          ; Changes_When_Casefolded # L&       CYRILLIC CAPITAL LETTER I WITH MACRON",
text! "04E4          ; Changes_When_Casefolded # L&       CYRILLIC CAPITAL LETTER I WITH DIAERESIS",
text! "04E6          ; Changes_When_Casefolded # L&       CYRILLIC CAPITAL LETTER O WITH DIAERESIS",
text! "04E8          ; Changes_When_Casefolded # L&       CYRILLIC CAPITAL LETTER BARRED O",
text! "04EA          ; Changes_When_Casefolded # L&       CYRILLIC CAPITAL LETTER BARRED O WITH DIAERESIS",
text! "04EC          ; Changes_When_Casefolded # L&       CYRILLIC CAPITAL LETTER E WITH DIAERESIS",
text! "04EE          ; Changes_When_Casefolded # L&       CYRILLIC CAPITAL LETTER U WITH MACRON",
text! "04F0          ; Changes_When_Casefolded # L&       CYRILLIC CAPITAL LETTER U WITH DIAERESIS",
text! "04F2          ; Changes_When_Casefolded # L&       CYRILLIC CAPITAL LETTER U WITH DOUBLE ACUTE",
text! "04F4          ; Changes_When_Casefolded # L&       CYRILLIC CAPITAL LETTER CHE WITH DIAERESIS",
text! "04F6          ; Changes_When_Casefolded # L&       CYRILLIC CAPITAL LETTER GHE WITH DESCENDER",
text! "04F8          ; Changes_When_Casefolded # L&       CYRILLIC CAPITAL LETTER YERU WITH DIAERESIS",
text! "04FA          ; Changes_When_Casefolded # L&       CYRILLIC CAPITAL LETTER GHE WITH STROKE AND HOOK",
text! "04FC          ; Changes_When_Casefolded # L&       CYRILLIC CAPITAL LETTER HA WITH HOOK",
text! "04FE          ; Changes_When_Casefolded # L&       CYRILLIC CAPITAL LETTER HA WITH STROKE",
text! "0500          ; Changes_When_Casefolded # L&       CYRILLIC CAPITAL LETTER KOMI DE",
text! "0502          ; Changes_When_Casefolded # L&       CYRILLIC CAPITAL LETTER KOMI DJE",
text! "0504          ; Changes_When_Casefolded # L&       CYRILLIC CAPITAL LETTER KOMI ZJE",
text! "0506          ; Changes_When_Casefolded # L&       CYRILLIC CAPITAL LETTER KOMI DZJE",
text! "0508          ; Changes_When_Casefolded # L&       CYRILLIC CAPITAL LETTER KOMI LJE",
text! "050A          ; Changes_When_Casefolded # L&       CYRILLIC CAPITAL LETTER KOMI NJE",
text! "050C          ; Changes_When_Casefolded # L&       CYRILLIC CAPITAL LETTER KOMI SJE",
text! "050E          ; Changes_When_Casefolded # L&       CYRILLIC CAPITAL LETTER KOMI TJE",
text! "0510          ; Changes_When_Casefolded # L&       CYRILLIC CAPITAL LETTER REVERSED ZE",
text! "0512          ; Changes_When_Casefolded # L&       CYRILLIC CAPITAL LETTER EL WITH HOOK",
text! "0514          ; Changes_When_Casefolded # L&       CYRILLIC CAPITAL LETTER LHA",
text! "0516          ; Changes_When_Casefolded # L&       CYRILLIC CAPITAL LETTER RHA",
text! "0518          ; Changes_When_Casefolded # L&       CYRILLIC CAPITAL LETTER YAE",
text! "051A          ; Changes_When_Casefolded # L&       CYRILLIC CAPITAL LETTER QA",
text! "051C          ; Changes_When_Casefolded # L&       CYRILLIC CAPITAL LETTER WE",
text! "051E          ; Changes_When_Casefolded # L&       CYRILLIC CAPITAL LETTER ALEUT KA",
text! "0520          ; Changes_When_Casefolded # L&       CYRILLIC CAPITAL LETTER EL WITH MIDDLE HOOK",
text! "0522          ; Changes_When_Casefolded # L&       CYRILLIC CAPITAL LETTER EN WITH MIDDLE HOOK",
text! "0524          ; Changes_When_Casefolded # L&       CYRILLIC CAPITAL LETTER PE WITH DESCENDER",
text! "0526          ; Changes_When_Casefolded # L&       CYRILLIC CAPITAL LETTER SHHA WITH DESCENDER",
text! "0528          ; Changes_When_Casefolded # L&       CYRILLIC CAPITAL LETTER EN WITH LEFT HOOK",
text! "052A          ; Changes_When_Casefolded # L&       CYRILLIC CAPITAL LETTER DZZHE",
text! "052C          ; Changes_When_Casefolded # L&       CYRILLIC CAPITAL LETTER DCHE",
text! "052E          ; Changes_When_Casefolded # L&       CYRILLIC CAPITAL LETTER EL WITH DESCENDER",
text! "0531..0556    ; Changes_When_Casefolded # L&  [38] ARMENIAN CAPITAL LETTER AYB..ARMENIAN CAPITAL LETTER FEH",
text! "0587          ; Changes_When_Casefolded # L&       ARMENIAN SMALL LIGATURE ECH YIWN",
text! "10A0..10C5    ; Changes_When_Casefolded # L&  [38] GEORGIAN CAPITAL LETTER AN..GEORGIAN CAPITAL LETTER HOE",
text! "10C7          ; Changes_When_Casefolded # L&       GEORGIAN CAPITAL LETTER YN",
text! "10CD          ; Changes_When_Casefolded # L&       GEORGIAN CAPITAL LETTER AEN",
text! "13F8..13FD    ; Changes_When_Casefolded # L&   [6] CHEROKEE SMALL LETTER YE..CHEROKEE SMALL LETTER MV",
text! "1C80..1C89    ; Changes_When_Casefolded # L&  [10] CYRILLIC SMALL LETTER ROUNDED VE..CYRILLIC CAPITAL LETTER TJE"]

/-- lines 5761-5824 -/
def derivedCore90 : List Nat := [
text! "1C90..1CBA    ; Changes_When_Casefolded # L&  [43] GEORGIAN MTAVRULI CAPITAL LETTER AN..GEORGIAN MTAVRULI CAPITAL LETTER AIN",
text! "1CBD..1CBF    ; Changes_When_Casefolded # L&   [3] GEORGIAN MTAVRULI CAPITAL LETTER AEN..GEORGIAN MTAVRULI CAPITAL LETTER LABIAL SIGN",
text! "1E00          ; Changes_When_Casefolded # L&       LATIN CAPITAL LETTER A WITH RING BELOW",
text! "1E02          ; Changes_When_Casefolded # L&       LATIN CAPITAL LETTER B WITH DOT ABOVE",
text! "1E04          ; Changes_When_Casefolded # L&       LATIN CAPITAL LETTER B WITH DOT BELOW",
text! "1E06          ; Changes_When_Casefolded # L&       LATIN CAPITAL LETTER B WITH LINE BELOW",
text! "1E08          ; Changes_When_Casefolded # L&       LATIN CAPITAL LETTER C WITH CEDILLA AND ACUTE",
text! "1E0A          ; Changes_When_Casefolded # L&       LATIN CAPITAL LETTER D WITH DOT ABOVE",
text! "1E0C          ; Changes_When_Casefolded # L&       LATIN CAPITAL LETTER D WITH DOT BELOW",
text! "1E0E          ; Changes_When_Casefolded # L&       LATIN CAPITAL LETTER D WITH LINE BELOW",
text! "1E10          ; Changes_When_Casefolded # L&       LATIN CAPITAL LETTER D WITH CEDILLA",
text! "1E12          ; Changes_When_Casefolded # L&       LATIN CAPITAL LETTER D WITH CIRCUMFLEX BELOW",
text! "1E14          ; Changes_When_Casefolded # L&       LATIN CAPITAL LETTER E WITH MACRON AND GRAVE",
text! "1E16          ; Changes_When_Casefolded # L&       LATIN CAPITAL LETTER E WITH MACRON AND ACUTE",
text! "1E18          ; Changes_When_Casefolded # L&       LATIN CAPITAL LETTER E WITH CIRCUMFLEX BELOW",
text! "1E1A          ; Changes_When_Casefolded # L&       LATIN CAPITAL LETTER E WITH TILDE BELOW",
text! "1E1C          ; Changes_When_Casefolded # L&       LATIN CAPITAL LETTER E WITH CEDILLA AND BREVE",
text! "1E1E          ; Changes_When_Casefolded # L&       LATIN CAPITAL LETTER F WITH DOT ABOVE",
text! "1E20          ; Changes_When_Casefolded # L&       LATIN CAPITAL LETTER G WITH MACRON",
text! "1E22          ; Changes_When_Casefolded # L&       LATIN CAPITAL LETTER H WITH DOT ABOVE",
text! "1E24          ; Changes_When_Casefolded # L&       LATIN CAPITAL LETTER H WITH DOT BELOW",
text! "1E26          ; Changes_When_Casefolded # L&       LATIN CAPITAL LETTER H WITH DIAERESIS",
text! "1E28          ; Changes_When_Casefolded # L&       LATIN CAPITAL LETTER H WITH CEDILLA",
text! "1E2A          ; Changes_When_Casefolded # L&       LATIN CAPITAL LETTER H WITH BREVE BELOW",
text! "1E2C          ; Changes_When_Casefolded # L&       LATIN CAPITAL LETTER I WITH TILDE BELOW",
text! "1E2E          ; Changes_When_Casefolded # L&       LATIN CAPITAL LETTER I WITH DIAERESIS AND ACUTE",
text! "1E30          ; Changes_When_Casefolded # L&       LATIN CAPITAL LETTER K WITH ACUTE",
text! "1E32          ; Changes_When_Casefolded # L&       LATIN CAPITAL LETTER K WITH DOT BELOW",
text! "1E34          ; Changes_When_Casefolded # L&       LATIN CAPITAL LETTER K WITH LINE BELOW",
text! "1E36          ; Changes_When_Casefolded # L&       LATIN CAPITAL LETTER L WITH DOT BELOW",
text! "1E38          ; Changes_When_Casefolded # L&       LATIN CAPITAL LETTER L WITH DOT BELOW AND MACRON",
text! "1E3A          ; Changes_When_Casefolded # L&       LATIN CAPITAL LETTER L WITH LINE BELOW",
text! "1E3C          ; Changes_When_Casefolded # L&       LATIN CAPITAL LETTER L WITH CIRCUMFLEX BELOW",
text! "1E3E          ; Changes_When_Casefolded # L&       LATIN CAPITAL LETTER M WITH ACUTE",
text! "1E40          ; Changes_When_Casefolded # L&       LATIN CAPITAL LETTER M WITH DOT ABOVE",
text! "1E42          ; Changes_When_Casefolded # L&       LATIN CAPITAL LETTER M WITH DOT BELOW",
text! "1E44          ; Changes_When_Casefolded # L&       LATIN CAPITAL LETTER N WITH DOT ABOVE",
text! "1E46          ; Changes_When_Casefolded # L&       LATIN CAPITAL LETTER N WITH DOT BELOW",
text! "1E48          ; Changes_When_Casefolded # L&       LATIN CAPITAL LETTER N WITH LINE BELOW",
text! "1E4A          ; Changes_When_Casefolded # L&       LATIN CAPITAL LETTER N WITH CIRCUMFLEX BELOW",
text! "1E4C          ; Changes_When_Casefolded # L&       LATIN CAPITAL LETTER O WITH TILDE AND ACUTE",
text! "1E4E          ; Changes_When_Casefolded # L&       LATIN CAPITAL LETTER O WITH TILDE AND DIAERESIS",
text! "1E50          ; Changes_When_Casefolded # L&       LATIN CAPITAL LETTER O WITH MACRON AND GRAVE",
text! "1E52          ; Changes_When_Casefolded # L&       LATIN CAPITAL LETTER O WITH MACRON AND ACUTE",
text! "1E54          ; Changes_When_Casefolded # L&       LATIN CAPITAL LETTER P WITH ACUTE",
text! "1E56          ; Changes_When_Casefolded # L&       LATIN CAPITAL LETTER P WITH DOT ABOVE",
text! "1E58          ; Changes_When_Casefolded # L&       LATIN CAPITAL LETTER R WITH DOT ABOVE",
text! "1E5A          ; Changes_When_Casefolded # L&       LATIN CAPITAL LETTER R WITH DOT BELOW",
text! "1E5C          ; Changes_When_Casefolded # L&       LATIN CAPITAL LETTER R WITH DOT BELOW AND MACRON",
text! "1E5E          ; Changes_When_Casefolded # L&       LATIN CAPITAL LETTER R WITH LINE BELOW",
text! "1E60          ; Changes_When_Casefolded # L&       LATIN CAPITAL LETTER S WITH DOT ABOVE",
text! "1E62          ; Changes_When_Casefolded # L&       LATIN CAPITAL LETTER S WITH DOT BELOW",
text! "1E64          ; Changes_When_Casefolded # L&       LATIN CAPITAL LETTER S WITH ACUTE AND DOT ABOVE",
text! "1E66          ; Changes_When_Casefolded # L&       LATIN CAPITAL LETTER S WITH CARON AND DOT ABOVE",
text! "1E68          ; Changes_When_Casefolded # L&       LATIN CAPITAL LETTER S WITH DOT BELOW AND DOT ABOVE",
text! "1E6A          ; Changes_When_Casefolded # L&       LATIN CAPITAL LETTER T WITH DOT ABOVE",
text! "1E6C          ; Changes_When_Casefolded # L&       LATIN CAPITAL LETTER T WITH DOT BELOW",
text! "1E6E          ; Changes_When_Casefolded # L&       LATIN CAPITAL LETTER T WITH LINE BELOW",
text! "1E70          ; Changes_When_Casefolded # L&       LATIN CAPITAL LETTER T WITH CIRCUMFLEX BELOW",
text! "1E72          ; Changes_When_Casefolded # L&       LATIN CAPITAL LETTER U WITH DIAERESIS BELOW",
text! "1E74          ; Changes_When_Casefolded # L&       LATIN CAPITAL LETTER U WITH TILDE BELOW",
text! "1E76          ; Changes_When_Casefolded # L&       LATIN CAPITAL LETTER U WITH CIRCUMFLEX BELOW",
text! "1E78          ; Changes_When_Casefolded # L&       LATIN CAPITAL LETTER U WITH TILDE AND ACUTE",
text! "1E7A          ; Changes_When_Casefolded # L&       LATIN CAPITAL LETTER U WITH MACRON AND DIAERESIS"]

/-- lines 5825-5888 -/
def derivedCore91 : List Nat := [
text! "1E7C          ; Changes_When_Casefolded # L&       LATIN CAPITAL LETTER V WITH TILDE",
text! "1E7E          ; Changes_When_Casefolded # L&       LATIN CAPITAL LETTER V WITH DOT BELOW",
text! "1E80          ; Changes_When_Casefolded # L&       LATIN CAPITAL LETTER W WITH GRAVE",
text! "1E82          ; Changes_When_Casefolded # L&       LATIN CAPITAL LETTER W WITH ACUTE",
text! "1E84          ; Changes_When_Casefolded # L&       LATIN CAPITAL LETTER W WITH DIAERESIS",
text! "1E86          ; Changes_When_Casefolded # L&       LATIN CAPITAL LETTER W WITH DOT ABOVE",
text! "1E88          ; Changes_When_Casefolded # L&       LATIN CAPITAL LETTER W WITH DOT BELOW",
text! "1E8A          ; Changes_When_Casefolded # L&       LATIN CAPITAL LETTER X WITH DOT ABOVE",
text! "1E8C          ; Changes_When_Casefolded # L&       LATIN CAPITAL LETTER X WITH DIAERESIS",
text! "1E8E          ; Changes_When_Casefolded # L&       LATIN CAPITAL LETTER Y WITH DOT ABOVE",
text! "1E90          ; Changes_When_Casefolded # L&       LATIN CAPITAL LETTER Z WITH CIRCUMFLEX",
text! "1E92          ; Changes_When_Casefolded # L&       LATIN CAPITAL LETTER Z WITH DOT BELOW",
text! "1E94          ; Changes_When_Casefolded # L&       LATIN CAPITAL LETTER Z WITH LINE BELOW",
text! "1E9A..1E9B    ; Changes_When_Casefolded # L&   [2] LATIN SMALL LETTER A WITH RIGHT HALF RING..LATIN SMALL LETTER LONG S WITH DOT ABOVE",
text! "1E9E          ; Changes_When_Casefolded # L&       LATIN CAPITAL LETTER SHARP S",
text! "1EA0          ; Changes_When_Casefolded # L&       LATIN CAPITAL LETTER A WITH DOT BELOW",
text! "1EA2          ; Changes_When_Casefolded # L&       LATIN CAPITAL LETTER A WITH HOOK ABOVE",
text! "1EA4          ; Changes_When_Casefolded # L&       LATIN CAPITAL LETTER A WITH CIRCUMFLEX AND ACUTE",
text! "1EA6          ; Changes_When_Casefolded # L&       LATIN CAPITAL LETTER A WITH CIRCUMFLEX AND GRAVE",
text! "1EA8          ; Changes_When_Casefolded # L&       LATIN CAPITAL LETTER A WITH CIRCUMFLEX AND HOOK ABOVE",
text! "1EAA          ; Changes_When_Casefolded # L&       LATIN CAPITAL LETTER A WITH CIRCUMFLEX AND TILDE",
text! "1EAC          ; Changes_When_Casefolded # L&       LATIN CAPITAL LETTER A WITH CIRCUMFLEX AND DOT BELOW",
text! "1EAE          ; Changes_When_Casefolded # L&       LATIN CAPITAL LETTER A WITH BREVE AND ACUTE",
text! "1EB0          ; Changes_When_Casefolded # L&       LATIN CAPITAL LETTER A WITH BREVE AND GRAVE",
text! "1EB2          ; Changes_When_Casefolded # L&       LATIN CAPITAL LETTER A WITH BREVE AND HOOK ABOVE",
text! "1EB4          ; Changes_When_Casefolded # L&       LATIN CAPITAL LETTER A WITH BREVE AND TILDE",
text! "1EB6          ; Changes_When_Casefolded # L&       LATIN CAPITAL LETTER A WITH BREVE AND DOT BELOW",
text! "1EB8          ; Changes_When_Casefolded # L&       LATIN CAPITAL LETTER E WITH DOT BELOW",
text! "1EBA          ; Changes_When_Casefolded # L&       LATIN CAPITAL LETTER E WITH HOOK ABOVE",
text! "1EBC          ; Changes_When_Casefolded # L&       LATIN CAPITAL LETTER E WITH TILDE",
text! "1EBE          ; Changes_When_Casefolded # L&       LATIN CAPITAL LETTER E WITH CIRCUMFLEX AND ACUTE",
text! "1EC0          ; Changes_When_Casefolded # L&       LATIN CAPITAL LETTER E WITH CIRCUMFLEX AND GRAVE",
text! "1EC2          ; Changes_When_Casefolded # L&       LATIN CAPITAL LETTER E WITH CIRCUMFLEX AND HOOK ABOVE",
text! "1EC4          ; Changes_When_Casefolded # L&       LATIN CAPITAL LETTER E WITH CIRCUMFLEX AND TILDE",
text! "1EC6          ; Changes_When_Casefolded # L&       LATIN CAPITAL LETTER E WITH CIRCUMFLEX AND DOT BELOW",
text! "1EC8          ; Changes_When_Casefolded # L&       LATIN CAPITAL LETTER I WITH HOOK ABOVE",
text! "1ECA          ; Changes_When_Casefolded # L&       LATIN CAPITAL LETTER I WITH DOT BELOW",
text! "1ECC          ; Changes_When_Casefolded # L&       LATIN CAPITAL LETTER O WITH DOT BELOW",
text! "1ECE          ; Changes_When_Casefolded # L&       LATIN CAPITAL LETTER O WITH HOOK ABOVE",
text! "1ED0          ; Changes_When_Casefolded # L&       LATIN CAPITAL LETTER O WITH CIRCUMFLEX AND ACUTE",
text! "1ED2          ; Changes_When_Casefolded # L&       LATIN CAPITAL LETTER O WITH CIRCUMFLEX AND GRAVE",
text! "1ED4          ; Changes_When_Casefolded # L&       LATIN CAPITAL LETTER O WITH CIRCUMFLEX AND HOOK ABOVE",
text! "1ED6          ; Changes_When_Casefolded # L&       LATIN CAPITAL LETTER O WITH CIRCUMFLEX AND TILDE",
text! "1ED8          ; Changes_When_Casefolded # L&       LATIN CAPITAL LETTER O WITH CIRCUMFLEX AND DOT BELOW",
text! "1EDA          ; Changes_When_Casefolded # L&       LATIN CAPITAL LETTER O WITH HORN AND ACUTE",
text! "1EDC          ; Changes_When_Casefolded # L&       LATIN CAPITAL LETTER O WITH HORN AND GRAVE",
text! "1EDE          ; Changes_When_Casefolded # L&       LATIN CAPITAL LETTER O WITH HORN AND HOOK ABOVE",
text! "1EE0          ; Changes_When_Casefolded # L&       LATIN CAPITAL LETTER O WITH HORN AND TILDE",
text! "1EE2          ; Changes_When_Casefolded # L&       LATIN CAPITAL LETTER O WITH HORN AND DOT BELOW",
text! "1EE4          ; Changes_When_Casefolded # L&       LATIN CAPITAL LETTER U WITH DOT BELOW",
text! "1EE6          ; Changes_When_Casefolded # L&       LATIN CAPITAL LETTER U WITH HOOK ABOVE",
text! "1EE8          ; Changes_When_Casefolded # L&       LATIN CAPITAL LETTER U WITH HORN AND ACUTE",
text! "1EEA          ; Changes_When_Casefolded # L&       LATIN CAPITAL LETTER U WITH HORN AND GRAVE",
text! "1EEC          ; Changes_When_Casefolded # L&       LATIN CAPITAL LETTER U WITH HORN AND HOOK ABOVE",
text! "1EEE          ; Changes_When_Casefolded # L&       LATIN CAPITAL LETTER U WITH HORN AND TILDE",
text! "1EF0          ; Changes_When_Casefolded # L&       LATIN CAPITAL LETTER U WITH HORN AND DOT BELOW",
text! "1EF2          ; Changes_When_Casefolded # L&       LATIN CAPITAL LETTER Y WITH GRAVE",
text! "1EF4          ; Changes_When_Casefolded # L&       LATIN CAPITAL LETTER Y WITH DOT BELOW",
text! "1EF6          ; Changes_When_Casefolded # L&       LATIN CAPITAL LETTER Y WITH HOOK ABOVE",
text! "1EF8          ; Changes_When_Casefolded # L&       LATIN CAPITAL LETTER Y WITH TILDE",
text! "1EFA          ; Changes_When_Casefolded # L&       LATIN CAPITAL LETTER MIDDLE-WELSH LL",
text! "1EFC          ; Changes_When_Casefolded # L&       LATIN CAPITAL LETTER MIDDLE-WELSH V",
text! "1EFE          ; Changes_When_Casefolded # L&       LATIN CAPITAL LETTER Y WITH LOOP",
text! "1F08..1F0F    ; Changes_When_Casefolded # L&   [8] GREEK CAPITAL LETTER ALPHA WITH PSILI..GREEK CAPITAL LETTER ALPHA WITH DASIA AND PERISPOMENI"]

/-- lines 5889-5952 -/
def derivedCore92 : List Nat := [
text! "1F18..1F1D    ; Changes_When_Casefolded # L&   [6] GREEK CAPITAL LETTER EPSILON WITH PSILI..GREEK CAPITAL LETTER EPSILON WITH DASIA AND OXIA",
text! "1F28..1F2F    ; Changes_When_Casefolded # L&   [8] GREEK CAPITAL LETTER ETA WITH PSILI..GREEK CAPITAL LETTER ETA WITH DASIA AND PERISPOMENI",
text! "1F38..1F3F    ; Changes_When_Casefolded # L&   [8] GREEK CAPITAL LETTER IOTA WITH PSILI..GREEK CAPITAL LETTER IOTA WITH DASIA AND PERISPOMENI",
text! "1F48..1F4D    ; Changes_When_Casefolded # L&   [6] GREEK CAPITAL LETTER OMICRON WITH PSILI..GREEK CAPITAL LETTER OMICRON WITH DASIA AND OXIA",
text! "1F59          ; Changes_When_Casefolded # L&       GREEK CAPITAL LETTER UPSILON WITH DASIA",
text! "1F5B          ; Changes_When_Casefolded # L&       GREEK CAPITAL LETTER UPSILON WITH DASIA AND VARIA",
text! "1F5D          ; Changes_When_Casefolded # L&       GREEK CAPITAL LETTER UPSILON WITH DASIA AND OXIA",
text! "1F5F          ; Changes_When_Casefolded # L&       GREEK CAPITAL LETTER UPSILON WITH DASIA AND PERISPOMENI",
text! "1F68..1F6F    ; Changes_When_Casefolded # L&   [8] GREEK CAPITAL LETTER OMEGA WITH PSILI..GREEK CAPITAL LETTER OMEGA WITH DASIA AND PERISPOMENI",
text! "1F80..1FAF    ; Changes_When_Casefolded # L&  [48] GREEK SMALL LETTER ALPHA WITH PSILI AND YPOGEGRAMMENI..GREEK CAPITAL LETTER OMEGA WITH DASIA AND PERISPOMENI AND PROSGEGRAMMENI",
text! "1FB2..1FB4    ; Changes_When_Casefolded # L&   [3] GREEK SMALL LETTER ALPHA WITH VARIA AND YPOGEGRAMMENI..GREEK SMALL LETTER ALPHA WITH OXIA AND YPOGEGRAMMENI",
text! "1FB7..1FBC    ; Changes_When_Casefolded # L&   [6] GREEK SMALL LETTER ALPHA WITH PERISPOMENI AND YPOGEGRAMMENI..GREEK CAPITAL LETTER ALPHA WITH PROSGEGRAMMENI",
text! "1FC2..1FC4    ; Changes_When_Casefolded # L&   [3] GREEK SMALL LETTER ETA WITH VARIA AND YPOGEGRAMMENI..GREEK SMALL LETTER ETA WITH OXIA AND YPOGEGRAMMENI",
text! "1FC7..1FCC    ; Changes_When_Casefolded # L&   [6] GREEK SMALL LETTER ETA WITH PERISPOMENI AND YPOGEGRAMMENI..GREEK CAPITAL LETTER ETA WITH PROSGEGRAMMENI",
text! "1FD8..1FDB    ; Changes_When_Casefolded # L&   [4] GREEK CAPITAL LETTER IOTA WITH VRACHY..GREEK CAPITAL LETTER IOTA WITH OXIA",
text! "1FE8..1FEC    ; Changes_When_Casefolded # L&   [5] GREEK CAPITAL LETTER UPSILON WITH VRACHY..GREEK CAPITAL LETTER RHO WITH DASIA",
text! "1FF2..1FF4    ; Changes_When_Casefolded # L&   [3] GREEK SMALL LETTER OMEGA WITH VARIA AND YPOGEGRAMMENI..GREEK SMALL LETTER OMEGA WITH OXIA AND YPOGEGRAMMENI",
text! "1FF7..1FFC    ; Changes_When_Casefolded # L&   [6] GREEK SMALL LETTER OMEGA WITH PERISPOMENI AND YPOGEGRAMMENI..GREEK CAPITAL LETTER OMEGA WITH PROSGEGRAMMENI",
text! "2126          ; Changes_When_Casefolded # L&       OHM SIGN",
text! "212A..212B    ; Changes_When_Casefolded # L&   [2] KELVIN SIGN..ANGSTROM SIGN",
text! "2132          ; Changes_When_Casefolded # L&       TURNED CAPITAL F",
text! "2160..216F    ; Changes_When_Casefolded # Nl  [16] ROMAN NUMERAL ONE..ROMAN NUMERAL ONE THOUSAND",
text! "2183          ; Changes_When_Casefolded # L&       ROMAN NUMERAL REVERSED ONE HUNDRED",
text! "24B6..24CF    ; Changes_When_Casefolded # So  [26] CIRCLED LATIN CAPITAL LETTER A..CIRCLED LATIN CAPITAL LETTER Z",
text! "2C00..2C2F    ; Changes_When_Casefolded # L&  [48] GLAGOLITIC CAPITAL LETTER AZU..GLAGOLITIC CAPITAL LETTER CAUDATE CHRIVI",
text! "2C60          ; Changes_When_Casefolded # L&       LATIN CAPITAL LETTER L WITH DOUBLE BAR",
text! "2C62..2C64    ; Changes_When_Casefolded # L&   [3] LATIN CAPITAL LETTER L WITH MIDDLE TILDE..LATIN CAPITAL LETTER R WITH TAIL",
text! "2C67          ; Changes_When_Casefolded # L&       LATIN CAPITAL LETTER H WITH DESCENDER",
text! "2C69          ; Changes_When_Casefolded # L&       LATIN CAPITAL LETTER K WITH DESCENDER",
text! "2C6B          ; Changes_When_Casefolded # L&       LATIN CAPITAL LETTER Z WITH DESCENDER",
text! "2C6D..2C70    ; Changes_When_Casefolded # L&   [4] LATIN CAPITAL LETTER ALPHA..LATIN CAPITAL LETTER TURNED ALPHA",
text! "2C72          ; Changes_When_Casefolded # L&       LATIN CAPITAL LETTER W WITH HOOK",
text! "2C75          ; Changes_When_Casefolded # L&       LATIN CAPITAL LETTER HALF H",
text! "2C7E..2C80    ; Changes_When_Casefolded # L&   [3] LATIN CAPITAL LETTER S WITH SWASH TAIL..COPTIC CAPITAL LETTER ALFA",
text! "2C82          ; Changes_When_Casefolded # L&       COPTIC CAPITAL LETTER VIDA",
text! "2C84          ; Changes_When_Casefolded # L&       COPTIC CAPITAL LETTER GAMMA",
text! "2C86          ; Changes_When_Casefolded # L&       COPTIC CAPITAL LETTER DALDA",
text! "2C88          ; Changes_When_Casefolded # L&       COPTIC CAPITAL LETTER EIE",
text! "2C8A          ; Changes_When_Casefolded # L&       COPTIC CAPITAL LETTER SOU",
text! "2C8C          ; Changes_When_Casefolded # L&       COPTIC CAPITAL LETTER ZATA",
text! "2C8E          ; Changes_When_Casefolded # L&       COPTIC CAPITAL LETTER HATE",
text! "2C90          ; Changes_When_Casefolded # L&       COPTIC CAPITAL LETTER THETHE",
text! "2C92          ; Changes_When_Casefolded # L&       COPTIC CAPITAL LETTER IAUDA",
text! "2C94          ; Changes_When_Casefolded # L&       COPTIC CAPITAL LETTER KAPA",
text! "2C96          ; Changes_When_Casefolded # L&       COPTIC CAPITAL LETTER LAULA",
text! "2C98          ; Changes_When_Casefolded # L&       COPTIC CAPITAL LETTER MI",
text! "2C9A          ; Changes_When_Casefolded # L&       COPTIC CAPITAL LETTER NI",
text! "2C9C          ; Changes_When_Casefolded # L&       COPTIC CAPITAL LETTER KSI",
text! "2C9E          ; Changes_When_Casefolded # L&       COPTIC CAPITAL LETTER O",
text! "2CA0          ; Changes_When_Casefolded # L&       COPTIC CAPITAL LETTER PI",
text! "2CA2          ; Changes_When_Casefolded # L&       COPTIC CAPITAL LETTER RO",
text! "2CA4          ; Changes_When_Casefolded # L&       COPTIC CAPITAL LETTER SIMA",
text! "2CA6          ; Changes_When_Casefolded # L&       COPTIC CAPITAL LETTER TAU",
text! "2CA8          ; Changes_When_Casefolded # L&       COPTIC CAPITAL LETTER UA",
text! "2CAA          ; Changes_When_Casefolded # L&       COPTIC CAPITAL LETTER FI",
text! "2CAC          ; Changes_When_Casefolded # L&       COPTIC CAPITAL LETTER KHI",
text! "2CAE          ; Changes_When_Casefolded # L&       COPTIC CAPITAL LETTER PSI",
text! "2CB0          ; Changes_When_Casefolded # L&       COPTIC CAPITAL LETTER OOU",
text! "2CB2          ; Changes_When_Casefolded # L&       COPTIC CAPITAL LETTER DIALECT-P ALEF",
text! "2CB4          ; Changes_When_Casefolded # L&       COPTIC CAPITAL LETTER OLD COPTIC AIN",
text! "2CB6          ; Changes_When_Casefolded # L&       COPTIC CAPITAL LETTER CRYPTOGRAMMIC EIE",
text! "2CB8          ; Changes_When_Casefolded # L&       COPTIC CAPITAL LETTER DIALECT-P KAPA",
text! "2CBA          ; Changes_When_Casefolded # L&       COPTIC CAPITAL LETTER DIALECT-P NI",
text! "2CBC          ; Changes_When_Casefolded # L&       COPTIC CAPITAL LETTER CRYPTOGRAMMIC NI"]

/-- lines 5953-6016 -/
def derivedCore93 : List Nat := [
text! "2CBE          ; Changes_When_Casefolded # L&       COPTIC CAPITAL LETTER OLD COPTIC OOU",
text! "2CC0          ; Changes_When_Casefolded # L&       COPTIC CAPITAL LETTER SAMPI",
text! "2CC2          ; Changes_When_Casefolded # L&       COPTIC CAPITAL LETTER CROSSED SHEI",
text! "2CC4          ; Changes_When_Casefolded # L&       COPTIC CAPITAL LETTER OLD COPTIC SHEI",
text! "2CC6          ; Changes_When_Casefolded # L&       COPTIC CAPITAL LETTER OLD COPTIC ESH",
text! "2CC8          ; Changes_When_Casefolded # L&       COPTIC CAPITAL LETTER AKHMIMIC KHEI",
text! "2CCA          ; Changes_When_Casefolded # L&       COPTIC CAPITAL LETTER DIALECT-P HORI",
text! "2CCC          ; Changes_When_Casefolded # L&       COPTIC CAPITAL LETTER OLD COPTIC HORI",
text! "2CCE          ; Changes_When_Casefolded # L&       COPTIC CAPITAL LETTER OLD COPTIC HA",
text! "2CD0          ; Changes_When_Casefolded # L&       COPTIC CAPITAL LETTER L-SHAPED HA",
text! "2CD2          ; Changes_When_Casefolded # L&       COPTIC CAPITAL LETTER OLD COPTIC HEI",
text! "2CD4          ; Changes_When_Casefolded # L&       COPTIC CAPITAL LETTER OLD COPTIC HAT",
text! "2CD6          ; Changes_When_Casefolded # L&       COPTIC CAPITAL LETTER OLD COPTIC GANGIA",
text! "2CD8          ; Changes_When_Casefolded # L&       COPTIC CAPITAL LETTER OLD COPTIC DJA",
text! "2CDA          ; Changes_When_Casefolded # L&       COPTIC CAPITAL LETTER OLD COPTIC SHIMA",
text! "2CDC          ; Changes_When_Casefolded # L&       COPTIC CAPITAL LETTER OLD NUBIAN SHIMA",
text! "2CDE          ; Changes_When_Casefolded # L&       COPTIC CAPITAL LETTER OLD NUBIAN NGI",
text! "2CE0          ; Changes_When_Casefolded # L&       COPTIC CAPITAL LETTER OLD NUBIAN NYI",
text! "2CE2          ; Changes_When_Casefolded # L&       COPTIC CAPITAL LETTER OLD NUBIAN WAU",
text! "2CEB          ; Changes_When_Casefolded # L&       COPTIC CAPITAL LETTER CRYPTOGRAMMIC SHEI",
text! "2CED          ; Changes_When_Casefolded # L&       COPTIC CAPITAL LETTER CRYPTOGRAMMIC GANGIA",
text! "2CF2          ; Changes_When_Casefolded # L&       COPTIC CAPITAL LETTER BOHAIRIC KHEI",
text! "A640          ; Changes_When_Casefolded # L&       CYRILLIC CAPITAL LETTER ZEMLYA",
text! "A642          ; Changes_When_Casefolded # L&       CYRILLIC CAPITAL LETTER DZELO",
text! "A644          ; Changes_When_Casefolded # L&       CYRILLIC CAPITAL LETTER REVERSED DZE",
text! "A646          ; Changes_When_Casefolded # L&       CYRILLIC CAPITAL LETTER IOTA",
text! "A648          ; Changes_When_Casefolded # L&       CYRILLIC CAPITAL LETTER DJERV",
text! "A64A          ; Changes_When_Casefolded # L&       CYRILLIC CAPITAL LETTER MONOGRAPH UK",
text! "A64C          ; Changes_When_Casefolded # L&       CYRILLIC CAPITAL LETTER BROAD OMEGA",
text! "A64E          ; Changes_When_Casefolded # L&       CYRILLIC CAPITAL LETTER NEUTRAL YER",
text! "A650          ; Changes_When_Casefolded # L&       CYRILLIC CAPITAL LETTER YERU WITH BACK YER",
text! "A652          ; Changes_When_Casefolded # L&       CYRILLIC CAPITAL LETTER IOTIFIED YAT",
text! "A654          ; Changes_When_Casefolded # L&       CYRILLIC CAPITAL LETTER REVERSED YU",
text! "A656          ; Changes_When_Casefolded # L&       CYRILLIC CAPITAL LETTER IOTIFIED A",
text! "A658          ; Changes_When_Casefolded # L&       CYRILLIC CAPITAL LETTER CLOSED LITTLE YUS",
text! "A65A          ; Changes_When_Casefolded # L&       CYRILLIC CAPITAL LETTER BLENDED YUS",
text! "A65C          ; Changes_When_Casefolded # L&       CYRILLIC CAPITAL LETTER IOTIFIED CLOSED LITTLE YUS",
text! "A65E          ; Changes_When_Casefolded # L&       CYRILLIC CAPITAL LETTER YN",
text! "A660          ; Changes_When_Casefolded # L&       CYRILLIC CAPITAL LETTER REVERSED TSE",
text! "A662          ; Changes_When_Casefolded # L&       CYRILLIC CAPITAL LETTER SOFT DE",
text! "A664          ; Changes_When_Casefolded # L&       CYRILLIC CAPITAL LETTER SOFT EL",
text! "A666          ; Changes_When_Casefolded # L&       CYRILLIC CAPITAL LETTER SOFT EM",
text! "A668          ; Changes_When_Casefolded # L&       CYRILLIC CAPITAL LETTER MONOCULAR O",
text! "A66A          ; Changes_When_Casefolded # L&       CYRILLIC CAPITAL LETTER BINOCULAR O",
text! "A66C          ; Changes_When_Casefolded # L&       CYRILLIC CAPITAL LETTER DOUBLE MONOCULAR O",
text! "A680          ; Changes_When_Casefolded # L&       CYRILLIC CAPITAL LETTER DWE",
text! "A682          ; Changes_When_Casefolded # L&       CYRILLIC CAPITAL LETTER DZWE",
text! "A684          ; Changes_When_Casefolded # L&       CYRILLIC CAPITAL LETTER ZHWE",
text! "A686          ; Changes_When_Casefolded # L&       CYRILLIC CAPITAL LETTER CCHE",
text! "A688          ; Changes_When_Casefolded # L&       CYRILLIC CAPITAL LETTER DZZE",
text! "A68A          ; Changes_When_Casefolded # L&       CYRILLIC CAPITAL LETTER TE WITH MIDDLE HOOK",
text! "A68C          ; Changes_When_Casefolded # L&       CYRILLIC CAPITAL LETTER TWE",
text! "A68E          ; Changes_When_Casefolded # L&       CYRILLIC CAPITAL LETTER TSWE",
text! "A690          ; Changes_When_Casefolded # L&       CYRILLIC CAPITAL LETTER TSSE",
text! "A692          ; Changes_When_Casefolded # L&       CYRILLIC CAPITAL LETTER TCHE",
text! "A694          ; Changes_When_Casefolded # L&       CYRILLIC CAPITAL LETTER HWE",
text! "A696          ; Changes_When_Casefolded # L&       CYRILLIC CAPITAL LETTER SHWE",
text! "A698          ; Changes_When_Casefolded # L&       CYRILLIC CAPITAL LETTER DOUBLE O",
text! "A69A          ; Changes_When_Casefolded # L&       CYRILLIC CAPITAL LETTER CROSSED O",
text! "A722          ; Changes_When_Casefolded # L&       LATIN CAPITAL LETTER EGYPTOLOGICAL ALEF",
text! "A724          ; Changes_When_Casefolded # L&       LATIN CAPITAL LETTER EGYPTOLOGICAL AIN",
text! "A726          ; Changes_When_Casefolded # L&       LATIN CAPITAL LETTER HENG",
text! "A728          ; Changes_When_Casefolded # L&       LATIN CAPITAL LETTER TZ",
text! "A72A          ; Changes_When_Casefolded # L&       LATIN CAPITAL LETTER TRESILLO"]

/-- lines 6017-6080 -/
def derivedCore94 : List Nat := [
text! "A72C          ; Changes_When_Casefolded # L&       LATIN CAPITAL LETTER CUATRILLO",
text! "A72E          ; Changes_When_Casefolded # L&       LATIN CAPITAL LETTER CUATRILLO WITH COMMA",
text! "A732          ; Changes_When_Casefolded # L&       LATIN CAPITAL LETTER AA",
text! "A734          ; Changes_When_Casefolded # L&       LATIN CAPITAL LETTER AO",
text! "A736          ; Changes_When_Casefolded # L&       LATIN CAPITAL LETTER AU",
text! "A738          ; Changes_When_Casefolded # L&       LATIN CAPITAL LETTER AV",
text! "A73A          ; Changes_When_Casefolded # L&       LATIN CAPITAL LETTER AV WITH HORIZONTAL BAR",
text! "A73C          ; Changes_When_Casefolded # L&       LATIN CAPITAL LETTER AY",
text! "A73E          ; Changes_When_Casefolded # L&       LATIN CAPITAL LETTER REVERSED C WITH DOT",
text! "A740          ; Changes_When_Casefolded # L&       LATIN CAPITAL LETTER K WITH STROKE",
text! "A742          ; Changes_When_Casefolded # L&       LATIN CAPITAL LETTER K WITH DIAGONAL STROKE",
text! "A744          ; Changes_When_Casefolded # L&       LATIN CAPITAL LETTER K WITH STROKE AND DIAGONAL STROKE",
text! "A746          ; Changes_When_Casefolded # L&       LATIN CAPITAL LETTER BROKEN L",
text! "A748          ; Changes_When_Casefolded # L&       LATIN CAPITAL LETTER L WITH HIGH STROKE",
text! "A74A          ; Changes_When_Casefolded # L&       LATIN CAPITAL LETTER O WITH LONG STROKE OVERLAY",
text! "A74C          ; Changes_When_Casefolded # L&       LATIN CAPITAL LETTER O WITH LOOP",
text! "A74E          ; Changes_When_Casefolded # L&       LATIN CAPITAL LETTER OO",
text! "A750          ; Changes_When_Casefolded # L&       LATIN CAPITAL LETTER P WITH STROKE THROUGH DESCENDER",
text! "A752          ; Changes_When_Casefolded # L&       LATIN CAPITAL LETTER P WITH FLOURISH",
text! "A754          ; Changes_When_Casefolded # L&       LATIN CAPITAL LETTER P WITH SQUIRREL TAIL",
text! "A756          ; Changes_When_Casefolded # L&       LATIN CAPITAL LETTER Q WITH STROKE THROUGH DESCENDER",
text! "A758          ; Changes_When_Casefolded # L&       LATIN CAPITAL LETTER Q WITH DIAGONAL STROKE",
text! "A75A          ; Changes_When_Casefolded # L&       LATIN CAPITAL LETTER R ROTUNDA",
text! "A75C          ; Changes_When_Casefolded # L&       LATIN CAPITAL LETTER RUM ROTUNDA",
text! "A75E          ; Changes_When_Casefolded # L&       LATIN CAPITAL LETTER V WITH DIAGONAL STROKE",
text! "A760          ; Changes_When_Casefolded # L&       LATIN CAPITAL LETTER VY",
text! "A762          ; Changes_When_Casefolded # L&       LATIN CAPITAL LETTER VISIGOTHIC Z",
text! "A764          ; Changes_When_Casefolded # L&       LATIN CAPITAL LETTER THORN WITH STROKE",
text! "A766          ; Changes_When_Casefolded # L&       LATIN CAPITAL LETTER THORN WITH STROKE THROUGH DESCENDER",
text! "A768          ; Changes_When_Casefolded # L&       LATIN CAPITAL LETTER VEND",
text! "A76A          ; Changes_When_Casefolded # L&       LATIN CAPITAL LETTER ET",
text! "A76C          ; Changes_When_Casefolded # L&       LATIN CAPITAL LETTER IS",
text! "A76E          ; Changes_When_Casefolded # L&       LATIN CAPITAL LETTER CON",
text! "A779          ; Changes_When_Casefolded # L&       LATIN CAPITAL LETTER INSULAR D",
text! "A77B          ; Changes_When_Casefolded # L&       LATIN CAPITAL LETTER INSULAR F",
text! "A77D..A77E    ; Changes_When_Casefolded # L&   [2] LATIN CAPITAL LETTER INSULAR G..LATIN CAPITAL LETTER TURNED INSULAR G",
text! "A780          ; Changes_When_Casefolded # L&       LATIN CAPITAL LETTER TURNED L",
text! "A782          ; Changes_When_Casefolded # L&       LATIN CAPITAL LETTER INSULAR R",
text! "A784          ; Changes_When_Casefolded # L&       LATIN CAPITAL LETTER INSULAR S",
text! "A786          ; Changes_When_Casefolded # L&       LATIN CAPITAL LETTER INSULAR T",
text! "A78B          ; Changes_When_Casefolded # L&       LATIN CAPITAL LETTER SALTILLO",
text! "A78D          ; Changes_When_Casefolded # L&       LATIN CAPITAL LETTER TURNED H",
text! "A790          ; Changes_When_Casefolded # L&       LATIN CAPITAL LETTER N WITH DESCENDER",
text! "A792          ; Changes_When_Casefolded # L&       LATIN CAPITAL LETTER C WITH BAR",
text! "A796          ; Changes_When_Casefolded # L&       LATIN CAPITAL LETTER B WITH FLOURISH",
text! "A798          ; Changes_When_Casefolded # L&       LATIN CAPITAL LETTER F WITH STROKE",
text! "A79A          ; Changes_When_Casefolded # L&       LATIN CAPITAL LETTER VOLAPUK AE",
text! "A79C          ; Changes_When_Casefolded # L&       LATIN CAPITAL LETTER VOLAPUK OE",
text! "A79E          ; Changes_When_Casefolded # L&       LATIN CAPITAL LETTER VOLAPUK UE",
text! "A7A0          ; Changes_When_Casefolded # L&       LATIN CAPITAL LETTER G WITH OBLIQUE STROKE",
text! "A7A2          ; Changes_When_Casefolded # L&       LATIN CAPITAL LETTER K WITH OBLIQUE STROKE",
text! "A7A4          ; Changes_When_Casefolded # L&       LATIN CAPITAL LETTER N WITH OBLIQUE STROKE",
text! "A7A6          ; Changes_When_Casefolded # L&       LATIN CAPITAL LETTER R WITH OBLIQUE STROKE",
text! "A7A8          ; Changes_When_Casefolded # L&       LATIN CAPITAL LETTER S WITH OBLIQUE STROKE",
text! "A7AA..A7AE    ; Changes_When_Casefolded # L&   [5] LATIN CAPITAL LETTER H WITH HOOK..LATIN CAPITAL LETTER SMALL CAPITAL I",
text! "A7B0..A7B4    ; Changes_When_Casefolded # L&   [5] LATIN CAPITAL LETTER TURNED K..LATIN CAPITAL LETTER BETA",
text! "A7B6          ; Changes_When_Casefolded # L&       LATIN CAPITAL LETTER OMEGA",
text! "A7B8          ; Changes_When_Casefolded # L&       LATIN CAPITAL LETTER U WITH STROKE",
text! "A7BA          ; Changes_When_Casefolded # L&       LATIN CAPITAL LETTER GLOTTAL A",
text! "A7BC          ; Changes_When_Casefolded # L&       LATIN CAPITAL LETTER GLOTTAL I",
text! "A7BE          ; Changes_When_Casefolded # L&       LATIN CAPITAL LETTER GLOTTAL U",
text! "A7C0          ; Changes_When_Casefolded # L&       LATIN CAPITAL LETTER OLD POLISH O",
text! "A7C2          ; Changes_When_Casefolded # L&       LATIN CAPITAL LETTER ANGLICANA W",
text! "A7C4..A7C7    ; Changes_When_Casefolded # L&   [4] LATIN CAPITAL LETTER C WITH PALATAL HOOK..LATIN CAPITAL LETTER D WITH SHORT STROKE OVERLAY"]

/-- lines 6081-6144 -/
def derivedCore95 : List Nat := [
text! "A7C9          ; Changes_When_Casefolded # L&       LATIN CAPITAL LETTER S WITH SHORT STROKE OVERLAY",
text! "A7CB..A7CC    ; Changes_When_Casefolded # L&   [2] LATIN CAPITAL LETTER RAMS HORN..LATIN CAPITAL LETTER S WITH DIAGONAL STROKE",
text! "A7CE          ; Changes_When_Casefolded # L&       LATIN CAPITAL LETTER PHARYNGEAL VOICED FRICATIVE",
text! "A7D0          ; Changes_When_Casefolded # L&       LATIN CAPITAL LETTER CLOSED INSULAR G",
text! "A7D2          ; Changes_When_Casefolded # L&       LATIN CAPITAL LETTER DOUBLE THORN",
text! "A7D4          ; Changes_When_Casefolded # L&       LATIN CAPITAL LETTER DOUBLE WYNN",
text! "A7D6          ; Changes_When_Casefolded # L&       LATIN CAPITAL LETTER MIDDLE SCOTS S",
text! "A7D8          ; Changes_When_Casefolded # L&       LATIN CAPITAL LETTER SIGMOID S",
text! "A7DA          ; Changes_When_Casefolded # L&       LATIN CAPITAL LETTER LAMBDA",
text! "A7DC          ; Changes_When_Casefolded # L&       LATIN CAPITAL LETTER LAMBDA WITH STROKE",
text! "A7F5          ; Changes_When_Casefolded # L&       LATIN CAPITAL LETTER REVERSED HALF H",
text! "AB70..ABBF    ; Changes_When_Casefolded # L&  [80] CHEROKEE SMALL LETTER A..CHEROKEE SMALL LETTER YA",
text! "FB00..FB06    ; Changes_When_Casefolded # L&   [7] LATIN SMALL LIGATURE FF..LATIN SMALL LIGATURE ST",
text! "FB13..FB17    ; Changes_When_Casefolded # L&   [5] ARMENIAN SMALL LIGATURE MEN NOW..ARMENIAN SMALL LIGATURE MEN XEH",
text! "FF21..FF3A    ; Changes_When_Casefolded # L&  [26] FULLWIDTH LATIN CAPITAL LETTER A..FULLWIDTH LATIN CAPITAL LETTER Z",
text! "10400..10427  ; Changes_When_Casefolded # L&  [40] DESERET CAPITAL LETTER LONG I..DESERET CAPITAL LETTER EW",
text! "104B0..104D3  ; Changes_When_Casefolded # L&  [36] OSAGE CAPITAL LETTER A..OSAGE CAPITAL LETTER ZHA",
text! "10570..1057A  ; Changes_When_Casefolded # L&  [11] VITHKUQI CAPITAL LETTER A..VITHKUQI CAPITAL LETTER GA",
text! "1057C..1058A  ; Changes_When_Casefolded # L&  [15] VITHKUQI CAPITAL LETTER HA..VITHKUQI CAPITAL LETTER RE",
text! "1058C..10592  ; Changes_When_Casefolded # L&   [7] VITHKUQI CAPITAL LETTER SE..VITHKUQI CAPITAL LETTER XE",
text! "10594..10595  ; Changes_When_Casefolded # L&   [2] VITHKUQI CAPITAL LETTER Y..VITHKUQI CAPITAL LETTER ZE",
text! "10C80..10CB2  ; Changes_When_Casefolded # L&  [51] OLD HUNGARIAN CAPITAL LETTER A..OLD HUNGARIAN CAPITAL LETTER US",
text! "10D50..10D65  ; Changes_When_Casefolded # L&  [22] GARAY CAPITAL LETTER A..GARAY CAPITAL LETTER OLD NA",
text! "118A0..118BF  ; Changes_When_Casefolded # L&  [32] WARANG CITI CAPITAL LETTER NGAA..WARANG CITI CAPITAL LETTER VIYO",
text! "16E40..16E5F  ; Changes_When_Casefolded # L&  [32] MEDEFAIDRIN CAPITAL LETTER M..MEDEFAIDRIN CAPITAL LETTER Y",
text! "16EA0..16EB8  ; Changes_When_Casefolded # L&  [25] BERIA ERFE CAPITAL LETTER ARKAB..BERIA ERFE CAPITAL LETTER AY",
text! "1E900..1E921  ; Changes_When_Casefolded # L&  [34] ADLAM CAPITAL LETTER ALIF..ADLAM CAPITAL LETTER SHA",
text! "",
text! "# Total code points: 1561",
text! "",
text! "# ================================================",
text! "",
text! "# Derived Property:   Changes_When_Casemapped (CWCM)",
text! "#  Characters whose normalized forms are not stable under case mapping.",
text! "#  For more information, see the definition of \"isCased(X)\"",
text! "#  in the \"Conformance\" / \"Default Case Algorithms\" section of the core specification.",
text! "#  Changes_When_Casemapped(X) is true when CWL(X), or CWT(X), or CWU(X)",
text! "",
text! "0041..005A    ; Changes_When_Casemapped # L&  [26] LATIN CAPITAL LETTER A..LATIN CAPITAL LETTER Z",
text! "0061..007A    ; Changes_When_Casemapped # L&  [26] LATIN SMALL LETTER A..LATIN SMALL LETTER Z",
text! "00B5          ; Changes_When_Casemapped # L&       MICRO SIGN",
text! "00C0..00D6    ; Changes_When_Casemapped # L&  [23] LATIN CAPITAL LETTER A WITH GRAVE..LATIN CAPITAL LETTER O WITH DIAERESIS",
text! "00D8..00F6    ; Changes_When_Casemapped # L&  [31] LATIN CAPITAL LETTER O WITH STROKE..LATIN SMALL LETTER O WITH DIAERESIS",
text! "00F8..0137    ; Changes_When_Casemapped # L&  [64] LATIN SMALL LETTER O WITH STROKE..LATIN SMALL LETTER K WITH CEDILLA",
text! "0139..018C    ; Changes_When_Casemapped # L&  [84] LATIN CAPITAL LETTER L WITH ACUTE..LATIN SMALL LETTER D WITH TOPBAR",
text! "018E..01A9    ; Changes_When_Casemapped # L&  [28] LATIN CAPITAL LETTER REVERSED E..LATIN CAPITAL LETTER ESH",
text! "01AC..01B9    ; Changes_When_Casemapped # L&  [14] LATIN CAPITAL LETTER T WITH HOOK..LATIN SMALL LETTER EZH REVERSED",
text! "01BC..01BD    ; Changes_When_Casemapped # L&   [2] LATIN CAPITAL LETTER TONE FIVE..LATIN SMALL LETTER TONE FIVE",
text! "01BF          ; Changes_When_Casemapped # L&       LATIN LETTER WYNN",
text! "01C4..0220    ; Changes_When_Casemapped # L&  [93] LATIN CAPITAL LETTER DZ WITH CARON..LATIN CAPITAL LETTER N WITH LONG RIGHT LEG",
text! "0222..0233    ; Changes_When_Casemapped # L&  [18] LATIN CAPITAL LETTER OU..LATIN SMALL LETTER Y WITH MACRON",
text! "023A..0254    ; Changes_When_Casemapped # L&  [27] LATIN CAPITAL LETTER A WITH STROKE..LATIN SMALL LETTER OPEN O",
text! "0256..0257    ; Changes_When_Casemapped # L&   [2] LATIN SMALL LETTER D WITH TAIL..LATIN SMALL LETTER D WITH HOOK",
text! "0259          ; Changes_When_Casemapped # L&       LATIN SMALL LETTER SCHWA",
text! "025B..025C    ; Changes_When_Casemapped # L&   [2] LATIN SMALL LETTER OPEN E..LATIN SMALL LETTER REVERSED OPEN E",
text! "0260..0261    ; Changes_When_Casemapped # L&   [2] LATIN SMALL LETTER G WITH HOOK..LATIN SMALL LETTER SCRIPT G",
text! "0263..0266    ; Changes_When_Casemapped # L&   [4] LATIN SMALL LETTER GAMMA..LATIN SMALL LETTER H WITH HOOK",
text! "0268..026C    ; Changes_When_Casemapped # L&   [5] LATIN SMALL LETTER I WITH STROKE..LATIN SMALL LETTER L WITH BELT",
text! "026F          ; Changes_When_Casemapped # L&       LATIN SMALL LETTER TURNED M",
text! "0271..0272    ; Changes_When_Casemapped # L&   [2] LATIN SMALL LETTER M WITH HOOK..LATIN SMALL LETTER N WITH LEFT HOOK",
text! "0275          ; Changes_When_Casemapped # L&       LATIN SMALL LETTER BARRED O",
text! "027D          ; Changes_When_Casemapped # L&       LATIN SMALL LETTER R WITH TAIL",
text! "0280          ; Changes_When_Casemapped # L&       LATIN LETTER SMALL CAPITAL R",
text! "0282..0283    ; Changes_When_Casemapped # L&   [2] LATIN SMALL LETTER S WITH HOOK..LATIN SMALL LETTER ESH"]

/-- lines 6145-6208 -/
def derivedCore96 : List Nat := [
text! "0287..028C    ; Changes_When_Casemapped # L&   [6] LATIN SMALL LETTER TURNED T..LATIN SMALL LETTER TURNED V",
text! "0292          ; Changes_When_Casemapped # L&       LATIN SMALL LETTER EZH",
text! "029D..029E    ; Changes_When_Casemapped # L&   [2] LATIN SMALL LETTER J WITH CROSSED-TAIL..LATIN SMALL LETTER TURNED K",
text! "0345          ; Changes_When_Casemapped # Mn       COMBINING GREEK YPOGEGRAMMENI",
text! "0370..0373    ; Changes_When_Casemapped # L&   [4] GREEK CAPITAL LETTER HETA..GREEK SMALL LETTER ARCHAIC SAMPI",
text! "0376..0377    ; Changes_When_Casemapped # L&   [2] GREEK CAPITAL LETTER PAMPHYLIAN DIGAMMA..GREEK SMALL LETTER PAMPHYLIAN DIGAMMA",
text! "037B..037D    ; Changes_When_Casemapped # L&   [3] GREEK SMALL REVERSED LUNATE SIGMA SYMBOL..GREEK SMALL REVERSED DOTTED LUNATE SIGMA SYMBOL",
text! "037F          ; Changes_When_Casemapped # L&       GREEK CAPITAL LETTER YOT",
text! "0386          ; Changes_When_Casemapped # L&       GREEK CAPITAL LETTER ALPHA WITH TONOS",
text! "0388..038A    ; Changes_When_Casemapped # L&   [3] GREEK CAPITAL LETTER EPSILON WITH TONOS..GREEK CAPITAL LETTER IOTA WITH TONOS",
text! "038C          ; Changes_When_Casemapped # L&       GREEK CAPITAL LETTER OMICRON WITH TONOS",
text! "038E..03A1    ; Changes_When_Casemapped # L&  [20] GREEK CAPITAL LETTER UPSILON WITH TONOS..GREEK CAPITAL LETTER RHO",
text! "03A3..03D1    ; Changes_When_Casemapped # L&  [47] GREEK CAPITAL LETTER SIGMA..GREEK THETA SYMBOL",
text! "03D5..03F5    ; Changes_When_Casemapped # L&  [33] GREEK PHI SYMBOL..GREEK LUNATE EPSILON SYMBOL",
text! "03F7..03FB    ; Changes_When_Casemapped # L&   [5] GREEK CAPITAL LETTER SHO..GREEK SMALL LETTER SAN",
text! "03FD..0481    ; Changes_When_Casemapped # L& [133] GREEK CAPITAL REVERSED LUNATE SIGMA SYMBOL..CYRILLIC SMALL LETTER KOPPA",
text! "048A..052F    ; Changes_When_Casemapped # L& [166] CYRILLIC CAPITAL LETTER SHORT I WITH TAIL..CYRILLIC SMALL LETTER EL WITH DESCENDER",
text! "0531..0556    ; Changes_When_Casemapped # L&  [38] ARMENIAN CAPITAL LETTER AYB..ARMENIAN CAPITAL LETTER FEH",
text! "0561..0587    ; Changes_When_Casemapped # L&  [39] ARMENIAN SMALL LETTER AYB..ARMENIAN SMALL LIGATURE ECH YIWN",
text! "10A0..10C5    ; Changes_When_Casemapped # L&  [38] GEORGIAN CAPITAL LETTER AN..GEORGIAN CAPITAL LETTER HOE",
text! "10C7          ; Changes_When_Casemapped # L&       GEORGIAN CAPITAL LETTER YN",
text! "10CD          ; Changes_When_Casemapped # L&       GEORGIAN CAPITAL LETTER AEN",
text! "10D0..10FA    ; Changes_When_Casemapped # L&  [43] GEORGIAN LETTER AN..GEORGIAN LETTER AIN",
text! "10FD..10FF    ; Changes_When_Casemapped # L&   [3] GEORGIAN LETTER AEN..GEORGIAN LETTER LABIAL SIGN",
text! "13A0..13F5    ; Changes_When_Casemapped # L&  [86] CHEROKEE LETTER A..CHEROKEE LETTER MV",
text! "13F8..13FD    ; Changes_When_Casemapped # L&   [6] CHEROKEE SMALL LETTER YE..CHEROKEE SMALL LETTER MV",
text! "1C80..1C8A    ; Changes_When_Casemapped # L&  [11] CYRILLIC SMALL LETTER ROUNDED VE..CYRILLIC SMALL LETTER TJE",
text! "1C90..1CBA    ; Changes_When_Casemapped # L&  [43] GEORGIAN MTAVRULI CAPITAL LETTER AN..GEORGIAN MTAVRULI CAPITAL LETTER AIN",
text! "1CBD..1CBF    ; Changes_When_Casemapped # L&   [3] GEORGIAN MTAVRULI CAPITAL LETTER AEN..GEORGIAN MTAVRULI CAPITAL LETTER LABIAL SIGN",
text! "1D79          ; Changes_When_Casemapped # L&       LATIN SMALL LETTER INSULAR G",
text! "1D7D          ; Changes_When_Casemapped # L&       LATIN SMALL LETTER P WITH STROKE",
text! "1D8E          ; Changes_When_Casemapped # L&       LATIN SMALL LETTER Z WITH PALATAL HOOK",
text! "1E00..1E9B    ; Changes_When_Casemapped # L& [156] LATIN CAPITAL LETTER A WITH RING BELOW..LATIN SMALL LETTER LONG S WITH DOT ABOVE",
text! "1E9E          ; Changes_When_Casemapped # L&       LATIN CAPITAL LETTER SHARP S",
text! "1EA0..1F15    ; Changes_When_Casemapped # L& [118] LATIN CAPITAL LETTER A WITH DOT BELOW..GREEK SMALL LETTER EPSILON WITH DASIA AND OXIA",
text! "1F18..1F1D    ; Changes_When_Casemapped # L&   [6] GREEK CAPITAL LETTER EPSILON WITH PSILI..GREEK CAPITAL LETTER EPSILON WITH DASIA AND OXIA",
text! "1F20..1F45    ; Changes_When_Casemapped # L&  [38] GREEK SMALL LETTER ETA WITH PSILI..GREEK SMALL LETTER OMICRON WITH DASIA AND OXIA",
text! "1F48..1F4D    ; Changes_When_Casemapped # L&   [6] GREEK CAPITAL LETTER OMICRON WITH PSILI..GREEK CAPITAL LETTER OMICRON WITH DASIA AND OXIA",
text! "1F50..1F57    ; Changes_When_Casemapped # L&   [8] GREEK SMALL LETTER UPSILON WITH PSILI..GREEK SMALL LETTER UPSILON WITH DASIA AND PERISPOMENI",
text! "1F59          ; Changes_When_Casemapped # L&       GREEK CAPITAL LETTER UPSILON WITH DASIA",
text! "1F5B          ; Changes_When_Casemapped # L&       GREEK CAPITAL LETTER UPSILON WITH DASIA AND VARIA",
text! "1F5D          ; Changes_When_Casemapped # L&       GREEK CAPITAL LETTER UPSILON WITH DASIA AND OXIA",
text! "1F5F..1F7D    ; Changes_When_Casemapped # L&  [31] GREEK CAPITAL LETTER UPSILON WITH DASIA AND PERISPOMENI..GREEK SMALL LETTER OMEGA WITH OXIA",
text! "1F80..1FB4    ; Changes_When_Casemapped # L&  [53] GREEK SMALL LETTER ALPHA WITH PSILI AND YPOGEGRAMMENI..GREEK SMALL LETTER ALPHA WITH OXIA AND YPOGEGRAMMENI",
text! "1FB6..1FBC    ; Changes_When_Casemapped # L&   [7] GREEK SMALL LETTER ALPHA WITH PERISPOMENI..GREEK CAPITAL LETTER ALPHA WITH PROSGEGRAMMENI",
text! "1FBE          ; Changes_When_Casemapped # L&       GREEK PROSGEGRAMMENI",
text! "1FC2..1FC4    ; Changes_When_Casemapped # L&   [3] GREEK SMALL LETTER ETA WITH VARIA AND YPOGEGRAMMENI..GREEK SMALL LETTER ETA WITH OXIA AND YPOGEGRAMMENI",
text! "1FC6..1FCC    ; Changes_When_Casemapped # L&   [7] GREEK SMALL LETTER ETA WITH PERISPOMENI..GREEK CAPITAL LETTER ETA WITH PROSGEGRAMMENI",
text! "1FD0..1FD3    ; Changes_When_Casemapped # L&   [4] GREEK SMALL LETTER IOTA WITH VRACHY..GREEK SMALL LETTER IOTA WITH DIALYTIKA AND OXIA",
text! "1FD6..1FDB    ; Changes_When_Casemapped # L&   [6] GREEK SMALL LETTER IOTA WITH PERISPOMENI..GREEK CAPITAL LETTER IOTA WITH OXIA",
text! "1FE0..1FEC    ; Changes_When_Casemapped # L&  [13] GREEK SMALL LETTER UPSILON WITH VRACHY..GREEK CAPITAL LETTER RHO WITH DASIA",
text! "1FF2..1FF4    ; Changes_When_Casemapped # L&   [3] GREEK SMALL LETTER OMEGA WITH VARIA AND YPOGEGRAMMENI..GREEK SMALL LETTER OMEGA WITH OXIA AND YPOGEGRAMMENI",
text! "1FF6..1FFC    ; Changes_When_Casemapped # L&   [7] GREEK SMALL LETTER OMEGA WITH PERISPOMENI..GREEK CAPITAL LETTER OMEGA WITH PROSGEGRAMMENI",
text! "2126          ; Changes_When_Casemapped # L&       OHM SIGN",
text! "212A..212B    ; Changes_When_Casemapped # L&   [2] KELVIN SIGN..ANGSTROM SIGN",
text! "2132          ; Changes_When_Casemapped # L&       TURNED CAPITAL F",
text! "214E          ; Changes_When_Casemapped # L&       TURNED SMALL F",
text! "2160..217F    ; Changes_When_Casemapped # Nl  [32] ROMAN NUMERAL ONE..SMALL ROMAN NUMERAL ONE THOUSAND",
text! "2183..2184    ; Changes_When_Casemapped # L&   [2] ROMAN NUMERAL REVERSED ONE HUNDRED..LATIN SMALL LETTER REVERSED C",
text! "24B6..24E9    ; Changes_When_Casemapped # So  [52] CIRCLED LATIN CAPITAL LETTER A..CIRCLED LATIN SMALL LETTER Z",
text! "2C00..2C70    ; Changes_When_Casemapped # L& [113] GLAGOLITIC CAPITAL LETTER AZU..LATIN CAPITAL LETTER TURNED ALPHA",
text! "2C72..2C73    ; Changes_When_Casemapped # L&   [2] LATIN CAPITAL LETTER W WITH HOOK..LATIN SMALL LETTER W WITH HOOK",
text! "2C75..2C76    ; Changes_When_Casemapped # L&   [2] LATIN CAPITAL LETTER HALF H..LATIN SMALL LETTER HALF H",
text! "2C7E..2CE3    ; Changes_When_Casemapped # L& [102] LATIN CAPITAL LETTER S WITH SWASH TAIL..COPTIC SMALL LETTER OLD NUBIAN WAU"]

/-- lines 6209-6272 -/
def derivedCore97 : List Nat := [
text! "2CEB..2CEE    ; Changes_When_Casemapped # L&   [4] COPTIC CAPITAL LETTER CRYPTOGRAMMIC SHEI..COPTIC SMALL LETTER CRYPTOGRAMMIC GANGIA",
text! "2CF2..2CF3    ; Changes_When_Casemapped # L&   [2] COPTIC CAPITAL LETTER BOHAIRIC KHEI..COPTIC SMALL LETTER BOHAIRIC KHEI",
text! "2D00..2D25    ; Changes_When_Casemapped # L&  [38] GEORGIAN SMALL LETTER AN..GEORGIAN SMALL LETTER HOE",
text! "2D27          ; Changes_When_Casemapped # L&       GEORGIAN SMALL LETTER YN",
text! "2D2D          ; Changes_When_Casemapped # L&       GEORGIAN SMALL LETTER AEN",
text! "A640..A66D    ; Changes_When_Casemapped # L&  [46] CYRILLIC CAPITAL LETTER ZEMLYA..CYRILLIC SMALL LETTER DOUBLE MONOCULAR O",
text! "A680..A69B    ; Changes_When_Casemapped # L&  [28] CYRILLIC CAPITAL LETTER DWE..CYRILLIC SMALL LETTER CROSSED O",
text! "A722..A72F    ; Changes_When_Casemapped # L&  [14] LATIN CAPITAL LETTER EGYPTOLOGICAL ALEF..LATIN SMALL LETTER CUATRILLO WITH COMMA",
text! "A732..A76F    ; Changes_When_Casemapped # L&  [62] LATIN CAPITAL LETTER AA..LATIN SMALL LETTER CON",
text! "A779..A787    ; Changes_When_Casemapped # L&  [15] LATIN CAPITAL LETTER INSULAR D..LATIN SMALL LETTER INSULAR T",
text! "A78B..A78D    ; Changes_When_Casemapped # L&   [3] LATIN CAPITAL LETTER SALTILLO..LATIN CAPITAL LETTER TURNED H",
text! "A790..A794    ; Changes_When_Casemapped # L&   [5] LATIN CAPITAL LETTER N WITH DESCENDER..LATIN SMALL LETTER C WITH PALATAL HOOK",
text! "A796..A7AE    ; Changes_When_Casemapped # L&  [25] LATIN CAPITAL LETTER B WITH FLOURISH..LATIN CAPITAL LETTER SMALL CAPITAL I",
text! "A7B0..A7DC    ; Changes_When_Casemapped # L&  [45] LATIN CAPITAL LETTER TURNED K..LATIN CAPITAL LETTER LAMBDA WITH STROKE",
text! "A7F5..A7F6    ; Changes_When_Casemapped # L&   [2] LATIN CAPITAL LETTER REVERSED HALF H..LATIN SMALL LETTER REVERSED HALF H",
text! "AB53          ; Changes_When_Casemapped # L&       LATIN SMALL LETTER CHI",
text! "AB70..ABBF    ; Changes_When_Casemapped # L&  [80] CHEROKEE SMALL LETTER A..CHEROKEE SMALL LETTER YA",
text! "FB00..FB06    ; Changes_When_Casemapped # L&   [7] LATIN SMALL LIGATURE FF..LATIN SMALL LIGATURE ST",
text! "FB13..FB17    ; Changes_When_Casemapped # L&   [5] ARMENIAN SMALL LIGATURE MEN NOW..ARMENIAN SMALL LIGATURE MEN XEH",
text! "FF21..FF3A    ; Changes_When_Casemapped # L&  [26] FULLWIDTH LATIN CAPITAL LETTER A..FULLWIDTH LATIN CAPITAL LETTER Z",
text! "FF41..FF5A    ; Changes_When_Casemapped # L&  [26] FULLWIDTH LATIN SMALL LETTER A..FULLWIDTH LATIN SMALL LETTER Z",
text! "10400..1044F  ; Changes_When_Casemapped # L&  [80] DESERET CAPITAL LETTER LONG I..DESERET SMALL LETTER EW",
text! "104B0..104D3  ; Changes_When_Casemapped # L&  [36] OSAGE CAPITAL LETTER A..OSAGE CAPITAL LETTER ZHA",
text! "104D8..104FB  ; Changes_When_Casemapped # L&  [36] OSAGE SMALL LETTER A..OSAGE SMALL LETTER ZHA",
text! "10570..1057A  ; Changes_When_Casemapped # L&  [11] VITHKUQI CAPITAL LETTER A..VITHKUQI CAPITAL LETTER GA",
text! "1057C..1058A  ; Changes_When_Casemapped # L&  [15] VITHKUQI CAPITAL LETTER HA..VITHKUQI CAPITAL LETTER RE",
text! "1058C..10592  ; Changes_When_Casemapped # L&   [7] VITHKUQI CAPITAL LETTER SE..VITHKUQI CAPITAL LETTER XE",
text! "10594..10595  ; Changes_When_Casemapped # L&   [2] VITHKUQI CAPITAL LETTER Y..VITHKUQI CAPITAL LETTER ZE",
text! "10597..105A1  ; Changes_When_Casemapped # L&  [11] VITHKUQI SMALL LETTER A..VITHKUQI SMALL LETTER GA",
text! "105A3..105B1  ; Changes_When_Casemapped # L&  [15] VITHKUQI SMALL LETTER HA..VITHKUQI SMALL LETTER RE",
text! "105B3..105B9  ; Changes_When_Casemapped # L&   [7] VITHKUQI SMALL LETTER SE..VITHKUQI SMALL LETTER XE",
text! "105BB..105BC  ; Changes_When_Casemapped # L&   [2] VITHKUQI SMALL LETTER Y..VITHKUQI SMALL LETTER ZE",
text! "10C80..10CB2  ; Changes_When_Casemapped # L&  [51] OLD HUNGARIAN CAPITAL LETTER A..OLD HUNGARIAN CAPITAL LETTER US",
text! "10CC0..10CF2  ; Changes_When_Casemapped # L&  [51] OLD HUNGARIAN SMALL LETTER A..OLD HUNGARIAN SMALL LETTER US",
text! "10D50..10D65  ; Changes_When_Casemapped # L&  [22] GARAY CAPITAL LETTER A..GARAY CAPITAL LETTER OLD NA",
text! "10D70..10D85  ; Changes_When_Casemapped # L&  [22] GARAY SMALL LETTER A..GARAY SMALL LETTER OLD NA",
text! "118A0..118DF  ; Changes_When_Casemapped # L&  [64] WARANG CITI CAPITAL LETTER NGAA..WARANG CITI SMALL LETTER VIYO",
text! "16E40..16E7F  ; Changes_When_Casemapped # L&  [64] MEDEFAIDRIN CAPITAL LETTER M..MEDEFAIDRIN SMALL LETTER Y",
text! "16EA0..16EB8  ; Changes_When_Casemapped # L&  [25] BERIA ERFE CAPITAL LETTER ARKAB..BERIA ERFE CAPITAL LETTER AY",
text! "16EBB..16ED3  ; Changes_When_Casemapped # L&  [25] BERIA ERFE SMALL LETTER ARKAB..BERIA ERFE SMALL LETTER AY",
text! "1E900..1E943  ; Changes_When_Casemapped # L&  [68] ADLAM CAPITAL LETTER ALIF..ADLAM SMALL LETTER SHA",
text! "",
text! "# Total code points: 3037",
text! "",
text! "# ================================================",
text! "",
text! "# Derived Property: ID_Start",
text! "#  Characters that can start an identifier.",
text! "#  Generated from:",
text! "#      Lu + Ll + Lt + Lm + Lo + Nl",
text! "#    + Other_ID_Start",
text! "#    - Pattern_Syntax",
text! "#    - Pattern_White_Space",
text! "#  NOTE: See UAX #31 for more information",
text! "",
text! "0041..005A    ; ID_Start # L&  [26] LATIN CAPITAL LETTER A..LATIN CAPITAL LETTER Z",
text! "0061..007A    ; ID_Start # L&  [26] LATIN SMALL LETTER A..LATIN SMALL LETTER Z",
text! "00AA          ; ID_Start # Lo       FEMININE ORDINAL INDICATOR",
text! "00B5          ; ID_Start # L&       MICRO SIGN",
text! "00BA          ; ID_Start # Lo       MASCULINE ORDINAL INDICATOR",
text! "00C0..00D6    ; ID_Start # L&  [23] LATIN CAPITAL LETTER A WITH GRAVE..LATIN CAPITAL LETTER O WITH DIAERESIS",
text! "00D8..00F6    ; ID_Start # L&  [31] LATIN CAPITAL LETTER O WITH STROKE..LATIN SMALL LETTER O WITH DIAERESIS",
text! "00F8..01BA    ; ID_Start # L& [195] LATIN SMALL LETTER O WITH STROKE..LATIN SMALL LETTER EZH WITH TAIL",
text! "01BB          ; ID_Start # Lo       LATIN LETTER TWO WITH STROKE"]

/-- lines 6273-6336 -/
def derivedCore98 : List Nat := [
text! "01BC..01BF    ; ID_Start # L&   [4] LATIN CAPITAL LETTER TONE FIVE..LATIN LETTER WYNN",
text! "01C0..01C3    ; ID_Start # Lo   [4] LATIN LETTER DENTAL CLICK..LATIN LETTER RETROFLEX CLICK",
text! "01C4..0293    ; ID_Start # L& [208] LATIN CAPITAL LETTER DZ WITH CARON..LATIN SMALL LETTER EZH WITH CURL",
text! "0294..0295    ; ID_Start # Lo   [2] LATIN LETTER GLOTTAL STOP..LATIN LETTER PHARYNGEAL VOICED FRICATIVE",
text! "0296..02AF    ; ID_Start # L&  [26] LATIN LETTER INVERTED GLOTTAL STOP..LATIN SMALL LETTER TURNED H WITH FISHHOOK AND TAIL",
text! "02B0..02C1    ; ID_Start # Lm  [18] MODIFIER LETTER SMALL H..MODIFIER LETTER REVERSED GLOTTAL STOP",
text! "02C6..02D1    ; ID_Start # Lm  [12] MODIFIER LETTER CIRCUMFLEX ACCENT..MODIFIER LETTER HALF TRIANGULAR COLON",
text! "02E0..02E4    ; ID_Start # Lm   [5] MODIFIER LETTER SMALL GAMMA..MODIFIER LETTER SMALL REVERSED GLOTTAL STOP",
text! "02EC          ; ID_Start # Lm       MODIFIER LETTER VOICING",
text! "02EE          ; ID_Start # Lm       MODIFIER LETTER DOUBLE APOSTROPHE",
text! "0370..0373    ; ID_Start # L&   [4] GREEK CAPITAL LETTER HETA..GREEK SMALL LETTER ARCHAIC SAMPI",
text! "0374          ; ID_Start # Lm       GREEK NUMERAL SIGN",
text! "0376..0377    ; ID_Start # L&   [2] GREEK CAPITAL LETTER PAMPHYLIAN DIGAMMA..GREEK SMALL LETTER PAMPHYLIAN DIGAMMA",
text! "037A          ; ID_Start # Lm       GREEK YPOGEGRAMMENI",
text! "037B..037D    ; ID_Start # L&   [3] GREEK SMALL REVERSED LUNATE SIGMA SYMBOL..GREEK SMALL REVERSED DOTTED LUNATE SIGMA SYMBOL",
text! "037F          ; ID_Start # L&       GREEK CAPITAL LETTER YOT",
text! "0386          ; ID_Start # L&       GREEK CAPITAL LETTER ALPHA WITH TONOS",
text! "0388..038A    ; ID_Start # L&   [3] GREEK CAPITAL LETTER EPSILON WITH TONOS..GREEK CAPITAL LETTER IOTA WITH TONOS",
text! "038C          ; ID_Start # L&       GREEK CAPITAL LETTER OMICRON WITH TONOS",
text! "038E..03A1    ; ID_Start # L&  [20] GREEK CAPITAL LETTER UPSILON WITH TONOS..GREEK CAPITAL LETTER RHO",
text! "03A3..03F5    ; ID_Start # L&  [83] GREEK CAPITAL LETTER SIGMA..GREEK LUNATE EPSILON SYMBOL",
text! "03F7..0481    ; ID_Start # L& [139] GREEK CAPITAL LETTER SHO..CYRILLIC SMALL LETTER KOPPA",
text! "048A..052F    ; ID_Start # L& [166] CYRILLIC CAPITAL LETTER SHORT I WITH TAIL..CYRILLIC SMALL LETTER EL WITH DESCENDER",
text! "0531..0556    ; ID_Start # L&  [38] ARMENIAN CAPITAL LETTER AYB..ARMENIAN CAPITAL LETTER FEH",
text! "0559          ; ID_Start # Lm       ARMENIAN MODIFIER LETTER LEFT HALF RING",
text! "0560..0588    ; ID_Start # L&  [41] ARMENIAN SMALL LETTER TURNED AYB..ARMENIAN SMALL LETTER YI WITH STROKE",
text! "05D0..05EA    ; ID_Start # Lo  [27] HEBREW LETTER ALEF..HEBREW LETTER TAV",
text! "05EF..05F2    ; ID_Start # Lo   [4] HEBREW YOD TRIANGLE..HEBREW LIGATURE YIDDISH DOUBLE YOD",
text! "0620..063F    ; ID_Start # Lo  [32] ARABIC LETTER KASHMIRI YEH..ARABIC LETTER FARSI YEH WITH THREE DOTS ABOVE",
text! "0640          ; ID_Start # Lm       ARABIC TATWEEL",
text! "0641..064A    ; ID_Start # Lo  [10] ARABIC LETTER FEH..ARABIC LETTER YEH",
text! "066E..066F    ; ID_Start # Lo   [2] ARABIC LETTER DOTLESS BEH..ARABIC LETTER DOTLESS QAF",
text! "0671..06D3    ; ID_Start # Lo  [99] ARABIC LETTER ALEF WASLA..ARABIC LETTER YEH BARREE WITH HAMZA ABOVE",
text! "06D5          ; ID_Start # Lo       ARABIC LETTER AE",
text! "06E5..06E6    ; ID_Start # Lm   [2] ARABIC SMALL WAW..ARABIC SMALL YEH",
text! "06EE..06EF    ; ID_Start # Lo   [2] ARABIC LETTER DAL WITH INVERTED V..ARABIC LETTER REH WITH INVERTED V",
text! "06FA..06FC    ; ID_Start # Lo   [3] ARABIC LETTER SHEEN WITH DOT BELOW..ARABIC LETTER GHAIN WITH DOT BELOW",
text! "06FF          ; ID_Start # Lo       ARABIC LETTER HEH WITH INVERTED V",
text! "0710          ; ID_Start # Lo       SYRIAC LETTER ALAPH",
text! "0712..072F    ; ID_Start # Lo  [30] SYRIAC LETTER BETH..SYRIAC LETTER PERSIAN DHALATH",
text! "074D..07A5    ; ID_Start # Lo  [89] SYRIAC LETTER SOGDIAN ZHAIN..THAANA LETTER WAAVU",
text! "07B1          ; ID_Start # Lo       THAANA LETTER NAA",
text! "07CA..07EA    ; ID_Start # Lo  [33] NKO LETTER A..NKO LETTER JONA RA",
text! "07F4..07F5    ; ID_Start # Lm   [2] NKO HIGH TONE APOSTROPHE..NKO LOW TONE APOSTROPHE",
text! "07FA          ; ID_Start # Lm       NKO LAJANYALAN",
text! "0800..0815    ; ID_Start # Lo  [22] SAMARITAN LETTER ALAF..SAMARITAN LETTER TAAF",
text! "081A          ; ID_Start # Lm       SAMARITAN MODIFIER LETTER EPENTHETIC YUT",
text! "0824          ; ID_Start # Lm       SAMARITAN MODIFIER LETTER SHORT A",
text! "0828          ; ID_Start # Lm       SAMARITAN MODIFIER LETTER I",
text! "0840..0858    ; ID_Start # Lo  [25] MANDAIC LETTER HALQA..MANDAIC LETTER AIN",
text! "0860..086A    ; ID_Start # Lo  [11] SYRIAC LETTER MALAYALAM NGA..SYRIAC LETTER MALAYALAM SSA",
text! "0870..0887    ; ID_Start # Lo  [24] ARABIC LETTER ALEF WITH ATTACHED FATHA..ARABIC BASELINE ROUND DOT",
text! "0889..088F    ; ID_Start # Lo   [7] ARABIC LETTER NOON WITH INVERTED SMALL V..ARABIC LETTER NOON WITH RING ABOVE",
text! "08A0..08C8    ; ID_Start # Lo  [41] ARABIC LETTER BEH WITH SMALL V BELOW..ARABIC LETTER GRAF",
text! "08C9          ; ID_Start # Lm       ARABIC SMALL FARSI YEH",
text! "0904..0939    ; ID_Start # Lo  [54] DEVANAGARI LETTER SHORT A..DEVANAGARI LETTER HA",
text! "093D          ; ID_Start # Lo       DEVANAGARI SIGN AVAGRAHA",
text! "0950          ; ID_Start # Lo       DEVANAGARI OM",
text! "0958..0961    ; ID_Start # Lo  [10] DEVANAGARI LETTER QA..DEVANAGARI LETTER VOCALIC LL",
text! "0971          ; ID_Start # Lm       DEVANAGARI SIGN HIGH SPACING DOT",
text! "0972..0980    ; ID_Start # Lo  [15] DEVANAGARI LETTER CANDRA A..BENGALI ANJI",
text! "0985..098C    ; ID_Start # Lo   [8] BENGALI LETTER A..BENGALI LETTER VOCALIC L",
text! "098F..0990    ; ID_Start # Lo   [2] BENGALI LETTER E..BENGALI LETTER AI",
text! "0993..09A8    ; ID_Start # Lo  [22] BENGALI LETTER O..BENGALI LETTER NA"]

/-- lines 6337-6400 -/
def derivedCore99 : List Nat := [
text! "09AA..09B0    ; ID_Start # Lo   [7] BENGALI LETTER PA..BENGALI LETTER RA",
text! "09B2          ; ID_Start # Lo       BENGALI LETTER LA",
text! "09B6..09B9    ; ID_Start # Lo   [4] BENGALI LETTER SHA..BENGALI LETTER HA",
text! "09BD          ; ID_Start # Lo       BENGALI SIGN AVAGRAHA",
text! "09CE          ; ID_Start # Lo       BENGALI LETTER KHANDA TA",
text! "09DC..09DD    ; ID_Start # Lo   [2] BENGALI LETTER RRA..BENGALI LETTER RHA",
text! "09DF..09E1    ; ID_Start # Lo   [3] BENGALI LETTER YYA..BENGALI LETTER VOCALIC LL",
text! "09F0..09F1    ; ID_Start # Lo   [2] BENGALI LETTER RA WITH MIDDLE DIAGONAL..BENGALI LETTER RA WITH LOWER DIAGONAL",
text! "09FC          ; ID_Start # Lo       BENGALI LETTER VEDIC ANUSVARA",
text! "0A05..0A0A    ; ID_Start # Lo   [6] GURMUKHI LETTER A..GURMUKHI LETTER UU",
text! "0A0F..0A10    ; ID_Start # Lo   [2] GURMUKHI LETTER EE..GURMUKHI LETTER AI",
text! "0A13..0A28    ; ID_Start # Lo  [22] GURMUKHI LETTER OO..GURMUKHI LETTER NA",
text! "0A2A..0A30    ; ID_Start # Lo   [7] GURMUKHI LETTER PA..GURMUKHI LETTER RA",
text! "0A32..0A33    ; ID_Start # Lo   [2] GURMUKHI LETTER LA..GURMUKHI LETTER LLA",
text! "0A35..0A36    ; ID_Start # Lo   [2] GURMUKHI LETTER VA..GURMUKHI LETTER SHA",
text! "0A38..0A39    ; ID_Start # Lo   [2] GURMUKHI LETTER SA..GURMUKHI LETTER HA",
text! "0A59..0A5C    ; ID_Start # Lo   [4] GURMUKHI LETTER KHHA..GURMUKHI LETTER RRA",
text! "0A5E          ; ID_Start # Lo       GURMUKHI LETTER FA",
text! "0A72..0A74    ; ID_Start # Lo   [3] GURMUKHI IRI..GURMUKHI EK ONKAR",
text! "0A85..0A8D    ; ID_Start # Lo   [9] GUJARATI LETTER A..GUJARATI VOWEL CANDRA E",
text! "0A8F..0A91    ; ID_Start # Lo   [3] GUJARATI LETTER E..GUJARATI VOWEL CANDRA O",
text! "0A93..0AA8    ; ID_Start # Lo  [22] GUJARATI LETTER O..GUJARATI LETTER NA",
text! "0AAA..0AB0    ; ID_Start # Lo   [7] GUJARATI LETTER PA..GUJARATI LETTER RA",
text! "0AB2..0AB3    ; ID_Start # Lo   [2] GUJARATI LETTER LA..GUJARATI LETTER LLA",
text! "0AB5..0AB9    ; ID_Start # Lo   [5] GUJARATI LETTER VA..GUJARATI LETTER HA",
text! "0ABD          ; ID_Start # Lo       GUJARATI SIGN AVAGRAHA",
text! "0AD0          ; ID_Start # Lo       GUJARATI OM",
text! "0AE0..0AE1    ; ID_Start # Lo   [2] GUJARATI LETTER VOCALIC RR..GUJARATI LETTER VOCALIC LL",
text! "0AF9          ; ID_Start # Lo       GUJARATI LETTER ZHA",
text! "0B05..0B0C    ; ID_Start # Lo   [8] ORIYA LETTER A..ORIYA LETTER VOCALIC L",
text! "0B0F..0B10    ; ID_Start # Lo   [2] ORIYA LETTER E..ORIYA LETTER AI",
text! "0B13..0B28    ; ID_Start # Lo  [22] ORIYA LETTER O..ORIYA LETTER NA",
text! "0B2A..0B30    ; ID_Start # Lo   [7] ORIYA LETTER PA..ORIYA LETTER RA",
text! "0B32..0B33    ; ID_Start # Lo   [2] ORIYA LETTER LA..ORIYA LETTER LLA",
text! "0B35..0B39    ; ID_Start # Lo   [5] ORIYA LETTER VA..ORIYA LETTER HA",
text! "0B3D          ; ID_Start # Lo       ORIYA SIGN AVAGRAHA",
text! "0B5C..0B5D    ; ID_Start # Lo   [2] ORIYA LETTER RRA..ORIYA LETTER RHA",
text! "0B5F..0B61    ; ID_Start # Lo   [3] ORIYA LETTER YYA..ORIYA LETTER VOCALIC LL",
text! "0B71          ; ID_Start # Lo       ORIYA LETTER WA",
text! "0B83          ; ID_Start # Lo       TAMIL SIGN VISARGA",
text! "0B85..0B8A    ; ID_Start # Lo   [6] TAMIL LETTER A..TAMIL LETTER UU",
text! "0B8E..0B90    ; ID_Start # Lo   [3] TAMIL LETTER E..TAMIL LETTER AI",
text! "0B92..0B95    ; ID_Start # Lo   [4] TAMIL LETTER O..TAMIL LETTER KA",
text! "0B99..0B9A    ; ID_Start # Lo   [2] TAMIL LETTER NGA..TAMIL LETTER CA",
text! "0B9C          ; ID_Start # Lo       TAMIL LETTER JA",
text! "0B9E..0B9F    ; ID_Start # Lo   [2] TAMIL LETTER NYA..TAMIL LETTER TTA",
text! "0BA3..0BA4    ; ID_Start # Lo   [2] TAMIL LETTER NNA..TAMIL LETTER TA",
text! "0BA8..0BAA    ; ID_Start # Lo   [3] TAMIL LETTER NA..TAMIL LETTER PA",
text! "0BAE..0BB9    ; ID_Start # Lo  [12] TAMIL LETTER MA..TAMIL LETTER HA",
text! "0BD0          ; ID_Start # Lo       TAMIL OM",
text! "0C05..0C0C    ; ID_Start # Lo   [8] TELUGU LETTER A..TELUGU LETTER VOCALIC L",
text! "0C0E..0C10    ; ID_Start # Lo   [3] TELUGU LETTER E..TELUGU LETTER AI",
text! "0C12..0C28    ; ID_Start # Lo  [23] TELUGU LETTER O..TELUGU LETTER NA",
text! "0C2A..0C39    ; ID_Start # Lo  [16] TELUGU LETTER PA..TELUGU LETTER HA",
text! "0C3D          ; ID_Start # Lo       TELUGU SIGN AVAGRAHA",
text! "0C58..0C5A    ; ID_Start # Lo   [3] TELUGU LETTER TSA..TELUGU LETTER RRRA",
text! "0C5C..0C5D    ; ID_Start # Lo   [2] TELUGU ARCHAIC SHRII..TELUGU LETTER NAKAARA POLLU",
text! "0C60..0C61    ; ID_Start # Lo   [2] TELUGU LETTER VOCALIC RR..TELUGU LETTER VOCALIC LL",
text! "0C80          ; ID_Start # Lo       KANNADA SIGN SPACING CANDRABINDU",
text! "0C85..0C8C    ; ID_Start # Lo   [8] KANNADA LETTER A..KANNADA LETTER VOCALIC L",
text! "0C8E..0C90    ; ID_Start # Lo   [3] KANNADA LETTER E..KANNADA LETTER AI",
text! "0C92..0CA8    ; ID_Start # Lo  [23] KANNADA LETTER O..KANNADA LETTER NA",
text! "0CAA..0CB3    ; ID_Start # Lo  [10] KANNADA LETTER PA..KANNADA LETTER LLA",
text! "0CB5..0CB9    ; ID_Start # Lo   [5] KANNADA LETTER VA..KANNADA LETTER HA"]

/-- lines 6401-6464 -/
def derivedCore100 : List Nat := [
text! "0CBD          ; ID_Start # Lo       KANNADA SIGN AVAGRAHA",
text! "0CDC..0CDE    ; ID_Start # Lo   [3] KANNADA ARCHAIC SHRII..KANNADA LETTER FA",
text! "0CE0..0CE1    ; ID_Start # Lo   [2] KANNADA LETTER VOCALIC RR..KANNADA LETTER VOCALIC LL",
text! "0CF1..0CF2    ; ID_Start # Lo   [2] KANNADA SIGN JIHVAMULIYA..KANNADA SIGN UPADHMANIYA",
text! "0D04..0D0C    ; ID_Start # Lo   [9] MALAYALAM LETTER VEDIC ANUSVARA..MALAYALAM LETTER VOCALIC L",
text! "0D0E..0D10    ; ID_Start # Lo   [3] MALAYALAM LETTER E..MALAYALAM LETTER AI",
text! "0D12..0D3A    ; ID_Start # Lo  [41] MALAYALAM LETTER O..MALAYALAM LETTER TTTA",
text! "0D3D          ; ID_Start # Lo       MALAYALAM SIGN AVAGRAHA",
text! "0D4E          ; ID_Start # Lo       MALAYALAM LETTER DOT REPH",
text! "0D54..0D56    ; ID_Start # Lo   [3] MALAYALAM LETTER CHILLU M..MALAYALAM LETTER CHILLU LLL",
text! "0D5F..0D61    ; ID_Start # Lo   [3] MALAYALAM LETTER ARCHAIC II..MALAYALAM LETTER VOCALIC LL",
text! "0D7A..0D7F    ; ID_Start # Lo   [6] MALAYALAM LETTER CHILLU NN..MALAYALAM LETTER CHILLU K",
text! "0D85..0D96    ; ID_Start # Lo  [18] SINHALA LETTER AYANNA..SINHALA LETTER AUYANNA",
text! "0D9A..0DB1    ; ID_Start # Lo  [24] SINHALA LETTER ALPAPRAANA KAYANNA..SINHALA LETTER DANTAJA NAYANNA",
text! "0DB3..0DBB    ; ID_Start # Lo   [9] SINHALA LETTER SANYAKA DAYANNA..SINHALA LETTER RAYANNA",
text! "0DBD          ; ID_Start # Lo       SINHALA LETTER DANTAJA LAYANNA",
text! "0DC0..0DC6    ; ID_Start # Lo   [7] SINHALA LETTER VAYANNA..SINHALA LETTER FAYANNA",
text! "0E01..0E30    ; ID_Start # Lo  [48] THAI CHARACTER KO KAI..THAI CHARACTER SARA A",
text! "0E32..0E33    ; ID_Start # Lo   [2] THAI CHARACTER SARA AA..THAI CHARACTER SARA AM",
text! "0E40..0E45    ; ID_Start # Lo   [6] THAI CHARACTER SARA E..THAI CHARACTER LAKKHANGYAO",
text! "0E46          ; ID_Start # Lm       THAI CHARACTER MAIYAMOK",
text! "0E81..0E82    ; ID_Start # Lo   [2] LAO LETTER KO..LAO LETTER KHO SUNG",
text! "0E84          ; ID_Start # Lo       LAO LETTER KHO TAM",
text! "0E86..0E8A    ; ID_Start # Lo   [5] LAO LETTER PALI GHA..LAO LETTER SO TAM",
text! "0E8C..0EA3    ; ID_Start # Lo  [24] LAO LETTER PALI JHA..LAO LETTER LO LING",
text! "0EA5          ; ID_Start # Lo       LAO LETTER LO LOOT",
text! "0EA7..0EB0    ; ID_Start # Lo  [10] LAO LETTER WO..LAO VOWEL SIGN A",
text! "0EB2..0EB3    ; ID_Start # Lo   [2] LAO VOWEL SIGN AA..LAO VOWEL SIGN AM",
text! "0EBD          ; ID_Start # Lo       LAO SEMIVOWEL SIGN NYO",
text! "0EC0..0EC4    ; ID_Start # Lo   [5] LAO VOWEL SIGN E..LAO VOWEL SIGN AI",
text! "0EC6          ; ID_Start # Lm       LAO KO LA",
text! "0EDC..0EDF    ; ID_Start # Lo   [4] LAO HO NO..LAO LETTER KHMU NYO",
text! "0F00          ; ID_Start # Lo       TIBETAN SYLLABLE OM",
text! "0F40..0F47    ; ID_Start # Lo   [8] TIBETAN LETTER KA..TIBETAN LETTER JA",
text! "0F49..0F6C    ; ID_Start # Lo  [36] TIBETAN LETTER NYA..TIBETAN LETTER RRA",
text! "0F88..0F8C    ; ID_Start # Lo   [5] TIBETAN SIGN LCE TSA CAN..TIBETAN SIGN INVERTED MCHU CAN",
text! "1000..102A    ; ID_Start # Lo  [43] MYANMAR LETTER KA..MYANMAR LETTER AU",
text! "103F          ; ID_Start # Lo       MYANMAR LETTER GREAT SA",
text! "1050..1055    ; ID_Start # Lo   [6] MYANMAR LETTER SHA..MYANMAR LETTER VOCALIC LL",
text! "105A..105D    ; ID_Start # Lo   [4] MYANMAR LETTER MON NGA..MYANMAR LETTER MON BBE",
text! "1061          ; ID_Start # Lo       MYANMAR LETTER SGAW KAREN SHA",
text! "1065..1066    ; ID_Start # Lo   [2] MYANMAR LETTER WESTERN PWO KAREN THA..MYANMAR LETTER WESTERN PWO KAREN PWA",
text! "106E..1070    ; ID_Start # Lo   [3] MYANMAR LETTER EASTERN PWO KAREN NNA..MYANMAR LETTER EASTERN PWO KAREN GHWA",
text! "1075..1081    ; ID_Start # Lo  [13] MYANMAR LETTER SHAN KA..MYANMAR LETTER SHAN HA",
text! "108E          ; ID_Start # Lo       MYANMAR LETTER RUMAI PALAUNG FA",
text! "10A0..10C5    ; ID_Start # L&  [38] GEORGIAN CAPITAL LETTER AN..GEORGIAN CAPITAL LETTER HOE",
text! "10C7          ; ID_Start # L&       GEORGIAN CAPITAL LETTER YN",
text! "10CD          ; ID_Start # L&       GEORGIAN CAPITAL LETTER AEN",
text! "10D0..10FA    ; ID_Start # L&  [43] GEORGIAN LETTER AN..GEORGIAN LETTER AIN",
text! "10FC          ; ID_Start # Lm       MODIFIER LETTER GEORGIAN NAR",
text! "10FD..10FF    ; ID_Start # L&   [3] GEORGIAN LETTER AEN..GEORGIAN LETTER LABIAL SIGN",
text! "1100..1248    ; ID_Start # Lo [329] HANGUL CHOSEONG KIYEOK..ETHIOPIC SYLLABLE QWA",
text! "124A..124D    ; ID_Start # Lo   [4] ETHIOPIC SYLLABLE QWI..ETHIOPIC SYLLABLE QWE",
text! "1250..1256    ; ID_Start # Lo   [7] ETHIOPIC SYLLABLE QHA..ETHIOPIC SYLLABLE QHO",
text! "1258          ; ID_Start # Lo       ETHIOPIC SYLLABLE QHWA",
text! "125A..125D    ; ID_Start # Lo   [4] ETHIOPIC SYLLABLE QHWI..ETHIOPIC SYLLABLE QHWE",
text! "1260..1288    ; ID_Start # Lo  [41] ETHIOPIC SYLLABLE BA..ETHIOPIC SYLLABLE XWA",
text! "128A..128D    ; ID_Start # Lo   [4] ETHIOPIC SYLLABLE XWI..ETHIOPIC SYLLABLE XWE",
text! "1290..12B0    ; ID_Start # Lo  [33] ETHIOPIC SYLLABLE NA..ETHIOPIC SYLLABLE KWA",
text! "12B2..12B5    ; ID_Start # Lo   [4] ETHIOPIC SYLLABLE KWI..ETHIOPIC SYLLABLE KWE",
text! "12B8..12BE    ; ID_Start # Lo   [7] ETHIOPIC SYLLABLE KXA..ETHIOPIC SYLLABLE KXO",
text! "12C0          ; ID_Start # Lo       ETHIOPIC SYLLABLE KXWA",
text! "12C2..12C5    ; ID_Start # Lo   [4] ETHIOPIC SYLLABLE KXWI..ETHIOPIC SYLLABLE KXWE",
text! "12C8..12D6    ; ID_Start # Lo  [15] ETHIOPIC SYLLABLE WA..ETHIOPIC SYLLABLE PHARYNGEAL O"]

/-- lines 6465-6528 -/
def derivedCore101 : List Nat := [
text! "12D8..1310    ; ID_Start # Lo  [57] ETHIOPIC SYLLABLE ZA..ETHIOPIC SYLLABLE GWA",
text! "1312..1315    ; ID_Start # Lo   [4] ETHIOPIC SYLLABLE GWI..ETHIOPIC SYLLABLE GWE",
text! "1318..135A    ; ID_Start # Lo  [67] ETHIOPIC SYLLABLE GGA..ETHIOPIC SYLLABLE FYA",
text! "1380..138F    ; ID_Start # Lo  [16] ETHIOPIC SYLLABLE SEBATBEIT MWA..ETHIOPIC SYLLABLE PWE",
text! "13A0..13F5    ; ID_Start # L&  [86] CHEROKEE LETTER A..CHEROKEE LETTER MV",
text! "13F8..13FD    ; ID_Start # L&   [6] CHEROKEE SMALL LETTER YE..CHEROKEE SMALL LETTER MV",
text! "1401..166C    ; ID_Start # Lo [620] CANADIAN SYLLABICS E..CANADIAN SYLLABICS CARRIER TTSA",
text! "166F..167F    ; ID_Start # Lo  [17] CANADIAN SYLLABICS QAI..CANADIAN SYLLABICS BLACKFOOT W",
text! "1681..169A    ; ID_Start # Lo  [26] OGHAM LETTER BEITH..OGHAM LETTER PEITH",
text! "16A0..16EA    ; ID_Start # Lo  [75] RUNIC LETTER FEHU FEOH FE F..RUNIC LETTER X",
text! "16EE..16F0    ; ID_Start # Nl   [3] RUNIC ARLAUG SYMBOL..RUNIC BELGTHOR SYMBOL",
text! "16F1..16F8    ; ID_Start # Lo   [8] RUNIC LETTER K..RUNIC LETTER FRANKS CASKET AESC",
text! "1700..1711    ; ID_Start # Lo  [18] TAGALOG LETTER A..TAGALOG LETTER HA",
text! "171F..1731    ; ID_Start # Lo  [19] TAGALOG LETTER ARCHAIC RA..HANUNOO LETTER HA",
text! "1740..1751    ; ID_Start # Lo  [18] BUHID LETTER A..BUHID LETTER HA",
text! "1760..176C    ; ID_Start # Lo  [13] TAGBANWA LETTER A..TAGBANWA LETTER YA",
text! "176E..1770    ; ID_Start # Lo   [3] TAGBANWA LETTER LA..TAGBANWA LETTER SA",
text! "1780..17B3    ; ID_Start # Lo  [52] KHMER LETTER KA..KHMER INDEPENDENT VOWEL QAU",
text! "17D7          ; ID_Start # Lm       KHMER SIGN LEK TOO",
text! "17DC          ; ID_Start # Lo       KHMER SIGN AVAKRAHASANYA",
text! "1820..1842    ; ID_Start # Lo  [35] MONGOLIAN LETTER A..MONGOLIAN LETTER CHI",
text! "1843          ; ID_Start # Lm       MONGOLIAN LETTER TODO LONG VOWEL SIGN",
text! "1844..1878    ; ID_Start # Lo  [53] MONGOLIAN LETTER TODO E..MONGOLIAN LETTER CHA WITH TWO DOTS",
text! "1880..1884    ; ID_Start # Lo   [5] MONGOLIAN LETTER ALI GALI ANUSVARA ONE..MONGOLIAN LETTER ALI GALI INVERTED UBADAMA",
text! "1885..1886    ; ID_Start # Mn   [2] MONGOLIAN LETTER ALI GALI BALUDA..MONGOLIAN LETTER ALI GALI THREE BALUDA",
text! "1887..18A8    ; ID_Start # Lo  [34] MONGOLIAN LETTER ALI GALI A..MONGOLIAN LETTER MANCHU ALI GALI BHA",
text! "18AA          ; ID_Start # Lo       MONGOLIAN LETTER MANCHU ALI GALI LHA",
text! "18B0..18F5    ; ID_Start # Lo  [70] CANADIAN SYLLABICS OY..CANADIAN SYLLABICS CARRIER DENTAL S",
text! "1900..191E    ; ID_Start # Lo  [31] LIMBU VOWEL-CARRIER LETTER..LIMBU LETTER TRA",
text! "1950..196D    ; ID_Start # Lo  [30] TAI LE LETTER KA..TAI LE LETTER AI",
text! "1970..1974    ; ID_Start # Lo   [5] TAI LE LETTER TONE-2..TAI LE LETTER TONE-6",
text! "1980..19AB    ; ID_Start # Lo  [44] NEW TAI LUE LETTER HIGH QA..NEW TAI LUE LETTER LOW SUA",
text! "19B0..19C9    ; ID_Start # Lo  [26] NEW TAI LUE VOWEL SIGN VOWEL SHORTENER..NEW TAI LUE TONE MARK-2",
text! "1A00..1A16    ; ID_Start # Lo  [23] BUGINESE LETTER KA..BUGINESE LETTER HA",
text! "1A20..1A54    ; ID_Start # Lo  [53] TAI THAM LETTER HIGH KA..TAI THAM LETTER GREAT SA",
text! "1AA7          ; ID_Start # Lm       TAI THAM SIGN MAI YAMOK",
text! "1B05..1B33    ; ID_Start # Lo  [47] BALINESE LETTER AKARA..BALINESE LETTER HA",
text! "1B45..1B4C    ; ID_Start # Lo   [8] BALINESE LETTER KAF SASAK..BALINESE LETTER ARCHAIC JNYA",
text! "1B83..1BA0    ; ID_Start # Lo  [30] SUNDANESE LETTER A..SUNDANESE LETTER HA",
text! "1BAE..1BAF    ; ID_Start # Lo   [2] SUNDANESE LETTER KHA..SUNDANESE LETTER SYA",
text! "1BBA..1BE5    ; ID_Start # Lo  [44] SUNDANESE AVAGRAHA..BATAK LETTER U",
text! "1C00..1C23    ; ID_Start # Lo  [36] LEPCHA LETTER KA..LEPCHA LETTER A",
text! "1C4D..1C4F    ; ID_Start # Lo   [3] LEPCHA LETTER TTA..LEPCHA LETTER DDA",
text! "1C5A..1C77    ; ID_Start # Lo  [30] OL CHIKI LETTER LA..OL CHIKI LETTER OH",
text! "1C78..1C7D    ; ID_Start # Lm   [6] OL CHIKI MU TTUDDAG..OL CHIKI AHAD",
text! "1C80..1C8A    ; ID_Start # L&  [11] CYRILLIC SMALL LETTER ROUNDED VE..CYRILLIC SMALL LETTER TJE",
text! "1C90..1CBA    ; ID_Start # L&  [43] GEORGIAN MTAVRULI CAPITAL LETTER AN..GEORGIAN MTAVRULI CAPITAL LETTER AIN",
text! "1CBD..1CBF    ; ID_Start # L&   [3] GEORGIAN MTAVRULI CAPITAL LETTER AEN..GEORGIAN MTAVRULI CAPITAL LETTER LABIAL SIGN",
text! "1CE9..1CEC    ; ID_Start # Lo   [4] VEDIC SIGN ANUSVARA ANTARGOMUKHA..VEDIC SIGN ANUSVARA VAMAGOMUKHA WITH TAIL",
text! "1CEE..1CF3    ; ID_Start # Lo   [6] VEDIC SIGN HEXIFORM LONG ANUSVARA..VEDIC SIGN ROTATED ARDHAVISARGA",
text! "1CF5..1CF6    ; ID_Start # Lo   [2] VEDIC SIGN JIHVAMULIYA..VEDIC SIGN UPADHMANIYA",
text! "1CFA          ; ID_Start # Lo       VEDIC SIGN DOUBLE ANUSVARA ANTARGOMUKHA",
text! "1D00..1D2B    ; ID_Start # L&  [44] LATIN LETTER SMALL CAPITAL A..CYRILLIC LETTER SMALL CAPITAL EL",
text! "1D2C..1D6A    ; ID_Start # Lm  [63] MODIFIER LETTER CAPITAL A..GREEK SUBSCRIPT SMALL LETTER CHI",
text! "1D6B..1D77    ; ID_Start # L&  [13] LATIN SMALL LETTER UE..LATIN SMALL LETTER TURNED G",
text! "1D78          ; ID_Start # Lm       MODIFIER LETTER CYRILLIC EN",
text! "1D79..1D9A    ; ID_Start # L&  [34] LATIN SMALL LETTER INSULAR G..LATIN SMALL LETTER EZH WITH RETROFLEX HOOK",
text! "1D9B..1DBF    ; ID_Start # Lm  [37] MODIFIER LETTER SMALL TURNED ALPHA..MODIFIER LETTER SMALL THETA",
text! "1E00..1F15    ; ID_Start # L& [278] LATIN CAPITAL LETTER A WITH RING BELOW..GREEK SMALL LETTER EPSILON WITH DASIA AND OXIA",
text! "1F18..1F1D    ; ID_Start # L&   [6] GREEK CAPITAL LETTER EPSILON WITH PSILI..GREEK CAPITAL LETTER EPSILON WITH DASIA AND OXIA",
text! "1F20..1F45    ; ID_Start # L&  [38] GREEK SMALL LETTER ETA WITH PSILI..GREEK SMALL LETTER OMICRON WITH DASIA AND OXIA",
text! "1F48..1F4D    ; ID_Start # L&   [6] GREEK CAPITAL LETTER OMICRON WITH PSILI..GREEK CAPITAL LETTER OMICRON WITH DASIA AND OXIA",
text! "1F50..1F57    ; ID_Start # L&   [8] GREEK SMALL LETTER UPSILON WITH PSILI..GREEK SMALL LETTER UPSILON WITH DASIA AND PERISPOMENI",
text! "1F59          ; ID_Start # L&       GREEK CAPITAL LETTER UPSILON WITH DASIA"]

/-- lines 6529-6592 -/
def derivedCore102 : List Nat := [
text! "1F5B          ; ID_Start # L&       GREEK CAPITAL LETTER UPSILON WITH DASIA AND VARIA",
text! "1F5D          ; ID_Start # L&       GREEK CAPITAL LETTER UPSILON WITH DASIA AND OXIA",
text! "1F5F..1F7D    ; ID_Start # L&  [31] GREEK CAPITAL LETTER UPSILON WITH DASIA AND PERISPOMENI..GREEK SMALL LETTER OMEGA WITH OXIA",
text! "1F80..1FB4    ; ID_Start # L&  [53] GREEK SMALL LETTER ALPHA WITH PSILI AND YPOGEGRAMMENI..GREEK SMALL LETTER ALPHA WITH OXIA AND YPOGEGRAMMENI",
text! "1FB6..1FBC    ; ID_Start # L&   [7] GREEK SMALL LETTER ALPHA WITH PERISPOMENI..GREEK CAPITAL LETTER ALPHA WITH PROSGEGRAMMENI",
text! "1FBE          ; ID_Start # L&       GREEK PROSGEGRAMMENI",
text! "1FC2..1FC4    ; ID_Start # L&   [3] GREEK SMALL LETTER ETA WITH VARIA AND YPOGEGRAMMENI..GREEK SMALL LETTER ETA WITH OXIA AND YPOGEGRAMMENI",
text! "1FC6..1FCC    ; ID_Start # L&   [7] GREEK SMALL LETTER ETA WITH PERISPOMENI..GREEK CAPITAL LETTER ETA WITH PROSGEGRAMMENI",
text! "1FD0..1FD3    ; ID_Start # L&   [4] GREEK SMALL LETTER IOTA WITH VRACHY..GREEK SMALL LETTER IOTA WITH DIALYTIKA AND OXIA",
text! "1FD6..1FDB    ; ID_Start # L&   [6] GREEK SMALL LETTER IOTA WITH PERISPOMENI..GREEK CAPITAL LETTER IOTA WITH OXIA",
text! "1FE0..1FEC    ; ID_Start # L&  [13] GREEK SMALL LETTER UPSILON WITH VRACHY..GREEK CAPITAL LETTER RHO WITH DASIA",
text! "1FF2..1FF4    ; ID_Start # L&   [3] GREEK SMALL LETTER OMEGA WITH VARIA AND YPOGEGRAMMENI..GREEK SMALL LETTER OMEGA WITH OXIA AND YPOGEGRAMMENI",
text! "1FF6..1FFC    ; ID_Start # L&   [7] GREEK SMALL LETTER OMEGA WITH PERISPOMENI..GREEK CAPITAL LETTER OMEGA WITH PROSGEGRAMMENI",
text! "2071          ; ID_Start # Lm       SUPERSCRIPT LATIN SMALL LETTER I",
text! "207F          ; ID_Start # Lm       SUPERSCRIPT LATIN SMALL LETTER N",
text! "2090..209C    ; ID_Start # Lm  [13] LATIN SUBSCRIPT SMALL LETTER A..LATIN SUBSCRIPT SMALL LETTER T",
text! "2102          ; ID_Start # L&       DOUBLE-STRUCK CAPITAL C",
text! "2107          ; ID_Start # L&       EULER CONSTANT",
text! "210A..2113    ; ID_Start # L&  [10] SCRIPT SMALL G..SCRIPT SMALL L",
text! "2115          ; ID_Start # L&       DOUBLE-STRUCK CAPITAL N",
text! "2118          ; ID_Start # Sm       SCRIPT CAPITAL P",
text! "2119..211D    ; ID_Start # L&   [5] DOUBLE-STRUCK CAPITAL P..DOUBLE-STRUCK CAPITAL R",
text! "2124          ; ID_Start # L&       DOUBLE-STRUCK CAPITAL Z",
text! "2126          ; ID_Start # L&       OHM SIGN",
text! "2128          ; ID_Start # L&       BLACK-LETTER CAPITAL Z",
text! "212A..212D    ; ID_Start # L&   [4] KELVIN SIGN..BLACK-LETTER CAPITAL C",
text! "212E          ; ID_Start # So       ESTIMATED SYMBOL",
text! "212F..2134    ; ID_Start # L&   [6] SCRIPT SMALL E..SCRIPT SMALL O",
text! "2135..2138    ; ID_Start # Lo   [4] ALEF SYMBOL..DALET SYMBOL",
text! "2139          ; ID_Start # L&       INFORMATION SOURCE",
text! "213C..213F    ; ID_Start # L&   [4] DOUBLE-STRUCK SMALL PI..DOUBLE-STRUCK CAPITAL PI",
text! "2145..2149    ; ID_Start # L&   [5] DOUBLE-STRUCK ITALIC CAPITAL D..DOUBLE-STRUCK ITALIC SMALL J",
text! "214E          ; ID_Start # L&       TURNED SMALL F",
text! "2160..2182    ; ID_Start # Nl  [35] ROMAN NUMERAL ONE..ROMAN NUMERAL TEN THOUSAND",
text! "2183..2184    ; ID_Start # L&   [2] ROMAN NUMERAL REVERSED ONE HUNDRED..LATIN SMALL LETTER REVERSED C",
text! "2185..2188    ; ID_Start # Nl   [4] ROMAN NUMERAL SIX LATE FORM..ROMAN NUMERAL ONE HUNDRED THOUSAND",
text! "2C00..2C7B    ; ID_Start # L& [124] GLAGOLITIC CAPITAL LETTER AZU..LATIN LETTER SMALL CAPITAL TURNED E",
text! "2C7C..2C7D    ; ID_Start # Lm   [2] LATIN SUBSCRIPT SMALL LETTER J..MODIFIER LETTER CAPITAL V",
text! "2C7E..2CE4    ; ID_Start # L& [103] LATIN CAPITAL LETTER S WITH SWASH TAIL..COPTIC SYMBOL KAI",
text! "2CEB..2CEE    ; ID_Start # L&   [4] COPTIC CAPITAL LETTER CRYPTOGRAMMIC SHEI..COPTIC SMALL LETTER CRYPTOGRAMMIC GANGIA",
text! "2CF2..2CF3    ; ID_Start # L&   [2] COPTIC CAPITAL LETTER BOHAIRIC KHEI..COPTIC SMALL LETTER BOHAIRIC KHEI",
text! "2D00..2D25    ; ID_Start # L&  [38] GEORGIAN SMALL LETTER AN..GEORGIAN SMALL LETTER HOE",
text! "2D27          ; ID_Start # L&       GEORGIAN SMALL LETTER YN",
text! "2D2D          ; ID_Start # L&       GEORGIAN SMALL LETTER AEN",
text! "2D30..2D67    ; ID_Start # Lo  [56] TIFINAGH LETTER YA..TIFINAGH LETTER YO",
text! "2D6F          ; ID_Start # Lm       TIFINAGH MODIFIER LETTER LABIALIZATION MARK",
text! "2D80..2D96    ; ID_Start # Lo  [23] ETHIOPIC SYLLABLE LOA..ETHIOPIC SYLLABLE GGWE",
text! "2DA0..2DA6    ; ID_Start # Lo   [7] ETHIOPIC SYLLABLE SSA..ETHIOPIC SYLLABLE SSO",
text! "2DA8..2DAE    ; ID_Start # Lo   [7] ETHIOPIC SYLLABLE CCA..ETHIOPIC SYLLABLE CCO",
text! "2DB0..2DB6    ; ID_Start # Lo   [7] ETHIOPIC SYLLABLE ZZA..ETHIOPIC SYLLABLE ZZO",
text! "2DB8..2DBE    ; ID_Start # Lo   [7] ETHIOPIC SYLLABLE CCHA..ETHIOPIC SYLLABLE CCHO",
text! "2DC0..2DC6    ; ID_Start # Lo   [7] ETHIOPIC SYLLABLE QYA..ETHIOPIC SYLLABLE QYO",
text! "2DC8..2DCE    ; ID_Start # Lo   [7] ETHIOPIC SYLLABLE KYA..ETHIOPIC SYLLABLE KYO",
text! "2DD0..2DD6    ; ID_Start # Lo   [7] ETHIOPIC SYLLABLE XYA..ETHIOPIC SYLLABLE XYO",
text! "2DD8..2DDE    ; ID_Start # Lo   [7] ETHIOPIC SYLLABLE GYA..ETHIOPIC SYLLABLE GYO",
text! "3005          ; ID_Start # Lm       IDEOGRAPHIC ITERATION MARK",
text! "3006          ; ID_Start # Lo       IDEOGRAPHIC CLOSING MARK",
text! "3007          ; ID_Start # Nl       IDEOGRAPHIC NUMBER ZERO",
text! "3021..3029    ; ID_Start # Nl   [9] HANGZHOU NUMERAL ONE..HANGZHOU NUMERAL NINE",
text! "3031..3035    ; ID_Start # Lm   [5] VERTICAL KANA REPEAT MARK..VERTICAL KANA REPEAT MARK LOWER HALF",
text! "3038..303A    ; ID_Start # Nl   [3] HANGZHOU NUMERAL TEN..HANGZHOU NUMERAL THIRTY",
text! "303B          ; ID_Start # Lm       VERTICAL IDEOGRAPHIC ITERATION MARK",
text! "303C          ; ID_Start # Lo       MASU MARK",
text! "3041..3096    ; ID_Start # Lo  [86] HIRAGANA LETTER SMALL A..HIRAGANA LETTER SMALL KE"]

/-- lines 6593-6656 -/
def derivedCore103 : List Nat := [
text! "309B..309C    ; ID_Start # Sk   [2] KATAKANA-HIRAGANA VOICED SOUND MARK..KATAKANA-HIRAGANA SEMI-VOICED SOUND MARK",
text! "309D..309E    ; ID_Start # Lm   [2] HIRAGANA ITERATION MARK..HIRAGANA VOICED ITERATION MARK",
text! "309F          ; ID_Start # Lo       HIRAGANA DIGRAPH YORI",
text! "30A1..30FA    ; ID_Start # Lo  [90] KATAKANA LETTER SMALL A..KATAKANA LETTER VO",
text! "30FC..30FE    ; ID_Start # Lm   [3] KATAKANA-HIRAGANA PROLONGED SOUND MARK..KATAKANA VOICED ITERATION MARK",
text! "30FF          ; ID_Start # Lo       KATAKANA DIGRAPH KOTO",
text! "3105..312F    ; ID_Start # Lo  [43] BOPOMOFO LETTER B..BOPOMOFO LETTER NN",
text! "3131..318E    ; ID_Start # Lo  [94] HANGUL LETTER KIYEOK..HANGUL LETTER ARAEAE",
text! "31A0..31BF    ; ID_Start # Lo  [32] BOPOMOFO LETTER BU..BOPOMOFO LETTER AH",
text! "31F0..31FF    ; ID_Start # Lo  [16] KATAKANA LETTER SMALL KU..KATAKANA LETTER SMALL RO",
text! "3400..4DBF    ; ID_Start # Lo [6592] CJK UNIFIED IDEOGRAPH-3400..CJK UNIFIED IDEOGRAPH-4DBF",
text! "4E00..A014    ; ID_Start # Lo [21013] CJK UNIFIED IDEOGRAPH-4E00..YI SYLLABLE E",
text! "A015          ; ID_Start # Lm       YI SYLLABLE WU",
text! "A016..A48C    ; ID_Start # Lo [1143] YI SYLLABLE BIT..YI SYLLABLE YYR",
text! "A4D0..A4F7    ; ID_Start # Lo  [40] LISU LETTER BA..LISU LETTER OE",
text! "A4F8..A4FD    ; ID_Start # Lm   [6] LISU LETTER TONE MYA TI..LISU LETTER TONE MYA JEU",
text! "A500..A60B    ; ID_Start # Lo [268] VAI SYLLABLE EE..VAI SYLLABLE NG",
text! "A60C          ; ID_Start # Lm       VAI SYLLABLE LENGTHENER",
text! "A610..A61F    ; ID_Start # Lo  [16] VAI SYLLABLE NDOLE FA..VAI SYMBOL JONG",
text! "A62A..A62B    ; ID_Start # Lo   [2] VAI SYLLABLE NDOLE MA..VAI SYLLABLE NDOLE DO",
text! "A640..A66D    ; ID_Start # L&  [46] CYRILLIC CAPITAL LETTER ZEMLYA..CYRILLIC SMALL LETTER DOUBLE MONOCULAR O",
text! "A66E          ; ID_Start # Lo       CYRILLIC LETTER MULTIOCULAR O",
text! "A67F          ; ID_Start # Lm       CYRILLIC PAYEROK",
text! "A680..A69B    ; ID_Start # L&  [28] CYRILLIC CAPITAL LETTER DWE..CYRILLIC SMALL LETTER CROSSED O",
text! "A69C..A69D    ; ID_Start # Lm   [2] MODIFIER LETTER CYRILLIC HARD SIGN..MODIFIER LETTER CYRILLIC SOFT SIGN",
text! "A6A0..A6E5    ; ID_Start # Lo  [70] BAMUM LETTER A..BAMUM LETTER KI",
text! "A6E6..A6EF    ; ID_Start # Nl  [10] BAMUM LETTER MO..BAMUM LETTER KOGHOM",
text! "A717..A71F    ; ID_Start # Lm   [9] MODIFIER LETTER DOT VERTICAL BAR..MODIFIER LETTER LOW INVERTED EXCLAMATION MARK",
text! "A722..A76F    ; ID_Start # L&  [78] LATIN CAPITAL LETTER EGYPTOLOGICAL ALEF..LATIN SMALL LETTER CON",
text! "A770          ; ID_Start # Lm       MODIFIER LETTER US",
text! "A771..A787    ; ID_Start # L&  [23] LATIN SMALL LETTER DUM..LATIN SMALL LETTER INSULAR T",
text! "A788          ; ID_Start # Lm       MODIFIER LETTER LOW CIRCUMFLEX ACCENT",
text! "A78B..A78E    ; ID_Start # L&   [4] LATIN CAPITAL LETTER SALTILLO..LATIN SMALL LETTER L WITH RETROFLEX HOOK AND BELT",
text! "A78F          ; ID_Start # Lo       LATIN LETTER SINOLOGICAL DOT",
text! "A790..A7DC    ; ID_Start # L&  [77] LATIN CAPITAL LETTER N WITH DESCENDER..LATIN CAPITAL LETTER LAMBDA WITH STROKE",
text! "A7F1..A7F4    ; ID_Start # Lm   [4] MODIFIER LETTER CAPITAL S..MODIFIER LETTER CAPITAL Q",
text! "A7F5..A7F6    ; ID_Start # L&   [2] LATIN CAPITAL LETTER REVERSED HALF H..LATIN SMALL LETTER REVERSED HALF H",
text! "A7F7          ; ID_Start # Lo       LATIN EPIGRAPHIC LETTER SIDEWAYS I",
text! "A7F8..A7F9    ; ID_Start # Lm   [2] MODIFIER LETTER CAPITAL H WITH STROKE..MODIFIER LETTER SMALL LIGATURE OE",
text! "A7FA          ; ID_Start # L&       LATIN LETTER SMALL CAPITAL TURNED M",
text! "A7FB..A801    ; ID_Start # Lo   [7] LATIN EPIGRAPHIC LETTER REVERSED F..SYLOTI NAGRI LETTER I",
text! "A803..A805    ; ID_Start # Lo   [3] SYLOTI NAGRI LETTER U..SYLOTI NAGRI LETTER O",
text! "A807..A80A    ; ID_Start # Lo   [4] SYLOTI NAGRI LETTER KO..SYLOTI NAGRI LETTER GHO",
text! "A80C..A822    ; ID_Start # Lo  [23] SYLOTI NAGRI LETTER CO..SYLOTI NAGRI LETTER HO",
text! "A840..A873    ; ID_Start # Lo  [52] PHAGS-PA LETTER KA..PHAGS-PA LETTER CANDRABINDU",
text! "A882..A8B3    ; ID_Start # Lo  [50] SAURASHTRA LETTER A..SAURASHTRA LETTER LLA",
text! "A8F2..A8F7    ; ID_Start # Lo   [6] DEVANAGARI SIGN SPACING CANDRABINDU..DEVANAGARI SIGN CANDRABINDU AVAGRAHA",
text! "A8FB          ; ID_Start # Lo       DEVANAGARI HEADSTROKE",
text! "A8FD..A8FE    ; ID_Start # Lo   [2] DEVANAGARI JAIN OM..DEVANAGARI LETTER AY",
text! "A90A..A925    ; ID_Start # Lo  [28] KAYAH LI LETTER KA..KAYAH LI LETTER OO",
text! "A930..A946    ; ID_Start # Lo  [23] REJANG LETTER KA..REJANG LETTER A",
text! "A960..A97C    ; ID_Start # Lo  [29] HANGUL CHOSEONG TIKEUT-MIEUM..HANGUL CHOSEONG SSANGYEORINHIEUH",
text! "A984..A9B2    ; ID_Start # Lo  [47] JAVANESE LETTER A..JAVANESE LETTER HA",
text! "A9CF          ; ID_Start # Lm       JAVANESE PANGRANGKEP",
text! "A9E0..A9E4    ; ID_Start # Lo   [5] MYANMAR LETTER SHAN GHA..MYANMAR LETTER SHAN BHA",
text! "A9E6          ; ID_Start # Lm       MYANMAR MODIFIER LETTER SHAN REDUPLICATION",
text! "A9E7..A9EF    ; ID_Start # Lo   [9] MYANMAR LETTER TAI LAING NYA..MYANMAR LETTER TAI LAING NNA",
text! "A9FA..A9FE    ; ID_Start # Lo   [5] MYANMAR LETTER TAI LAING LLA..MYANMAR LETTER TAI LAING BHA",
text! "AA00..AA28    ; ID_Start # Lo  [41] CHAM LETTER A..CHAM LETTER HA",
text! "AA40..AA42    ; ID_Start # Lo   [3] CHAM LETTER FINAL K..CHAM LETTER FINAL NG",
text! "AA44..AA4B    ; ID_Start # Lo   [8] CHAM LETTER FINAL CH..CHAM LETTER FINAL SS",
text! "AA60..AA6F    ; ID_Start # Lo  [16] MYANMAR LETTER KHAMTI GA..MYANMAR LETTER KHAMTI FA",
text! "AA70          ; ID_Start # Lm       MYANMAR MODIFIER LETTER KHAMTI REDUPLICATION",
text! "AA71..AA76    ; ID_Start # Lo   [6] MYANMAR LETTER KHAMTI XA..MYANMAR LOGOGRAM KHAMTI HM"]

/-- lines 6657-6720 -/
def derivedCore104 : List Nat := [
text! "AA7A          ; ID_Start # Lo       MYANMAR LETTER AITON RA",
text! "AA7E..AAAF    ; ID_Start # Lo  [50] MYANMAR LETTER SHWE PALAUNG CHA..TAI VIET LETTER HIGH O",
text! "AAB1          ; ID_Start # Lo       TAI VIET VOWEL AA",
text! "AAB5..AAB6    ; ID_Start # Lo   [2] TAI VIET VOWEL E..TAI VIET VOWEL O",
text! "AAB9..AABD    ; ID_Start # Lo   [5] TAI VIET VOWEL UEA..TAI VIET VOWEL AN",
text! "AAC0          ; ID_Start # Lo       TAI VIET TONE MAI NUENG",
text! "AAC2          ; ID_Start # Lo       TAI VIET TONE MAI SONG",
text! "AADB..AADC    ; ID_Start # Lo   [2] TAI VIET SYMBOL KON..TAI VIET SYMBOL NUENG",
text! "AADD          ; ID_Start # Lm       TAI VIET SYMBOL SAM",
text! "AAE0..AAEA    ; ID_Start # Lo  [11] MEETEI MAYEK LETTER E..MEETEI MAYEK LETTER SSA",
text! "AAF2          ; ID_Start # Lo       MEETEI MAYEK ANJI",
text! "AAF3..AAF4    ; ID_Start # Lm   [2] MEETEI MAYEK SYLLABLE REPETITION MARK..MEETEI MAYEK WORD REPETITION MARK",
text! "AB01..AB06    ; ID_Start # Lo   [6] ETHIOPIC SYLLABLE TTHU..ETHIOPIC SYLLABLE TTHO",
text! "AB09..AB0E    ; ID_Start # Lo   [6] ETHIOPIC SYLLABLE DDHU..ETHIOPIC SYLLABLE DDHO",
text! "AB11..AB16    ; ID_Start # Lo   [6] ETHIOPIC SYLLABLE DZU..ETHIOPIC SYLLABLE DZO",
text! "AB20..AB26    ; ID_Start # Lo   [7] ETHIOPIC SYLLABLE CCHHA..ETHIOPIC SYLLABLE CCHHO",
text! "AB28..AB2E    ; ID_Start # Lo   [7] ETHIOPIC SYLLABLE BBA..ETHIOPIC SYLLABLE BBO",
text! "AB30..AB5A    ; ID_Start # L&  [43] LATIN SMALL LETTER BARRED ALPHA..LATIN SMALL LETTER Y WITH SHORT RIGHT LEG",
text! "AB5C..AB5F    ; ID_Start # Lm   [4] MODIFIER LETTER SMALL HENG..MODIFIER LETTER SMALL U WITH LEFT HOOK",
text! "AB60..AB68    ; ID_Start # L&   [9] LATIN SMALL LETTER SAKHA YAT..LATIN SMALL LETTER TURNED R WITH MIDDLE TILDE",
text! "AB69          ; ID_Start # Lm       MODIFIER LETTER SMALL TURNED W",
text! "AB70..ABBF    ; ID_Start # L&  [80] CHEROKEE SMALL LETTER A..CHEROKEE SMALL LETTER YA",
text! "ABC0..ABE2    ; ID_Start # Lo  [35] MEETEI MAYEK LETTER KOK..MEETEI MAYEK LETTER I LONSUM",
text! "AC00..D7A3    ; ID_Start # Lo [11172] HANGUL SYLLABLE GA..HANGUL SYLLABLE HIH",
text! "D7B0..D7C6    ; ID_Start # Lo  [23] HANGUL JUNGSEONG O-YEO..HANGUL JUNGSEONG ARAEA-E",
text! "D7CB..D7FB    ; ID_Start # Lo  [49] HANGUL JONGSEONG NIEUN-RIEUL..HANGUL JONGSEONG PHIEUPH-THIEUTH",
text! "F900..FA6D    ; ID_Start # Lo [366] CJK COMPATIBILITY IDEOGRAPH-F900..CJK COMPATIBILITY IDEOGRAPH-FA6D",
text! "FA70..FAD9    ; ID_Start # Lo [106] CJK COMPATIBILITY IDEOGRAPH-FA70..CJK COMPATIBILITY IDEOGRAPH-FAD9",
text! "FB00..FB06    ; ID_Start # L&   [7] LATIN SMALL LIGATURE FF..LATIN SMALL LIGATURE ST",
text! "FB13..FB17    ; ID_Start # L&   [5] ARMENIAN SMALL LIGATURE MEN NOW..ARMENIAN SMALL LIGATURE MEN XEH",
text! "FB1D          ; ID_Start # Lo       HEBREW LETTER YOD WITH HIRIQ",
text! "FB1F..FB28    ; ID_Start # Lo  [10] HEBREW LIGATURE YIDDISH YOD YOD PATAH..HEBREW LETTER WIDE TAV",
text! "FB2A..FB36    ; ID_Start # Lo  [13] HEBREW LETTER SHIN WITH SHIN DOT..HEBREW LETTER ZAYIN WITH DAGESH",
text! "FB38..FB3C    ; ID_Start # Lo   [5] HEBREW LETTER TET WITH DAGESH..HEBREW LETTER LAMED WITH DAGESH",
text! "FB3E          ; ID_Start # Lo       HEBREW LETTER MEM WITH DAGESH",
text! "FB40..FB41    ; ID_Start # Lo   [2] HEBREW LETTER NUN WITH DAGESH..HEBREW LETTER SAMEKH WITH DAGESH",
text! "FB43..FB44    ; ID_Start # Lo   [2] HEBREW LETTER FINAL PE WITH DAGESH..HEBREW LETTER PE WITH DAGESH",
text! "FB46..FBB1    ; ID_Start # Lo [108] HEBREW LETTER TSADI WITH DAGESH..ARABIC LETTER YEH BARREE WITH HAMZA ABOVE FINAL FORM",
text! "FBD3..FD3D    ; ID_Start # Lo [363] ARABIC LETTER NG ISOLATED FORM..ARABIC LIGATURE ALEF WITH FATHATAN ISOLATED FORM",
text! "FD50..FD8F    ; ID_Start # Lo  [64] ARABIC LIGATURE TEH WITH JEEM WITH MEEM INITIAL FORM..ARABIC LIGATURE MEEM WITH KHAH WITH MEEM INITIAL FORM",
text! "FD92..FDC7    ; ID_Start # Lo  [54] ARABIC LIGATURE MEEM WITH JEEM WITH KHAH INITIAL FORM..ARABIC LIGATURE NOON WITH JEEM WITH YEH FINAL FORM",
text! "FDF0..FDFB    ; ID_Start # Lo  [12] ARABIC LIGATURE SALLA USED AS KORANIC STOP SIGN ISOLATED FORM..ARABIC LIGATURE JALLAJALALOUHOU",
text! "FE70..FE74    ; ID_Start # Lo   [5] ARABIC FATHATAN ISOLATED FORM..ARABIC KASRATAN ISOLATED FORM",
text! "FE76..FEFC    ; ID_Start # Lo [135] ARABIC FATHA ISOLATED FORM..ARABIC LIGATURE LAM WITH ALEF FINAL FORM",
text! "FF21..FF3A    ; ID_Start # L&  [26] FULLWIDTH LATIN CAPITAL LETTER A..FULLWIDTH LATIN CAPITAL LETTER Z",
text! "FF41..FF5A    ; ID_Start # L&  [26] FULLWIDTH LATIN SMALL LETTER A..FULLWIDTH LATIN SMALL LETTER Z",
text! "FF66..FF6F    ; ID_Start # Lo  [10] HALFWIDTH KATAKANA LETTER WO..HALFWIDTH KATAKANA LETTER SMALL TU",
text! "FF70          ; ID_Start # Lm       HALFWIDTH KATAKANA-HIRAGANA PROLONGED SOUND MARK",
text! "FF71..FF9D    ; ID_Start # Lo  [45] HALFWIDTH KATAKANA LETTER A..HALFWIDTH KATAKANA LETTER N",
text! "FF9E..FF9F    ; ID_Start # Lm   [2] HALFWIDTH KATAKANA VOICED SOUND MARK..HALFWIDTH KATAKANA SEMI-VOICED SOUND MARK",
text! "FFA0..FFBE    ; ID_Start # Lo  [31] HALFWIDTH HANGUL FILLER..HALFWIDTH HANGUL LETTER HIEUH",
text! "FFC2..FFC7    ; ID_Start # Lo   [6] HALFWIDTH HANGUL LETTER A..HALFWIDTH HANGUL LETTER E",
text! "FFCA..FFCF    ; ID_Start # Lo   [6] HALFWIDTH HANGUL LETTER YEO..HALFWIDTH HANGUL LETTER OE",
text! "FFD2..FFD7    ; ID_Start # Lo   [6] HALFWIDTH HANGUL LETTER YO..HALFWIDTH HANGUL LETTER YU",
text! "FFDA..FFDC    ; ID_Start # Lo   [3] HALFWIDTH HANGUL LETTER EU..HALFWIDTH HANGUL LETTER I",
text! "10000..1000B  ; ID_Start # Lo  [12] LINEAR B SYLLABLE B008 A..LINEAR B SYLLABLE B046 JE",
text! "1000D..10026  ; ID_Start # Lo  [26] LINEAR B SYLLABLE B036 JO..LINEAR B SYLLABLE B032 QO",
text! "10028..1003A  ; ID_Start # Lo  [19] LINEAR B SYLLABLE B060 RA..LINEAR B SYLLABLE B042 WO",
text! "1003C..1003D  ; ID_Start # Lo   [2] LINEAR B SYLLABLE B017 ZA..LINEAR B SYLLABLE B074 ZE",
text! "1003F..1004D  ; ID_Start # Lo  [15] LINEAR B SYLLABLE B020 ZO..LINEAR B SYLLABLE B091 TWO",
text! "10050..1005D  ; ID_Start # Lo  [14] LINEAR B SYMBOL B018..LINEAR B SYMBOL B089",
text! "10080..100FA  ; ID_Start # Lo [123] LINEAR B IDEOGRAM B100 MAN..LINEAR B IDEOGRAM VESSEL B305",
text! "10140..10174  ; ID_Start # Nl  [53] GREEK ACROPHONIC ATTIC ONE QUARTER..GREEK ACROPHONIC STRATIAN FIFTY MNAS",
text! "10280..1029C  ; ID_Start # Lo  [29] LYCIAN LETTER A..LYCIAN LETTER X"]

/-- lines 6721-6784 -/
def derivedCore105 : List Nat := [
text! "102A0..102D0  ; ID_Start # Lo  [49] CARIAN LETTER A..CARIAN LETTER UUU3",
text! "10300..1031F  ; ID_Start # Lo  [32] OLD ITALIC LETTER A..OLD ITALIC LETTER ESS",
text! "1032D..10340  ; ID_Start # Lo  [20] OLD ITALIC LETTER YE..GOTHIC LETTER PAIRTHRA",
text! "10341         ; ID_Start # Nl       GOTHIC LETTER NINETY",
text! "10342..10349  ; ID_Start # Lo   [8] GOTHIC LETTER RAIDA..GOTHIC LETTER OTHAL",
text! "1034A         ; ID_Start # Nl       GOTHIC LETTER NINE HUNDRED",
text! "10350..10375  ; ID_Start # Lo  [38] OLD PERMIC LETTER AN..OLD PERMIC LETTER IA",
text! "10380..1039D  ; ID_Start # Lo  [30] UGARITIC LETTER ALPA..UGARITIC LETTER SSU",
text! "103A0..103C3  ; ID_Start # Lo  [36] OLD PERSIAN SIGN A..OLD PERSIAN SIGN HA",
text! "103C8..103CF  ; ID_Start # Lo   [8] OLD PERSIAN SIGN AURAMAZDAA..OLD PERSIAN SIGN BUUMISH",
text! "103D1..103D5  ; ID_Start # Nl   [5] OLD PERSIAN NUMBER ONE..OLD PERSIAN NUMBER HUNDRED",
text! "10400..1044F  ; ID_Start # L&  [80] DESERET CAPITAL LETTER LONG I..DESERET SMALL LETTER EW",
text! "10450..1049D  ; ID_Start # Lo  [78] SHAVIAN LETTER PEEP..OSMANYA LETTER OO",
text! "104B0..104D3  ; ID_Start # L&  [36] OSAGE CAPITAL LETTER A..OSAGE CAPITAL LETTER ZHA",
text! "104D8..104FB  ; ID_Start # L&  [36] OSAGE SMALL LETTER A..OSAGE SMALL LETTER ZHA",
text! "10500..10527  ; ID_Start # Lo  [40] ELBASAN LETTER A..ELBASAN LETTER KHE",
text! "10530..10563  ; ID_Start # Lo  [52] CAUCASIAN ALBANIAN LETTER ALT..CAUCASIAN ALBANIAN LETTER KIW",
text! "10570..1057A  ; ID_Start # L&  [11] VITHKUQI CAPITAL LETTER A..VITHKUQI CAPITAL LETTER GA",
text! "1057C..1058A  ; ID_Start # L&  [15] VITHKUQI CAPITAL LETTER HA..VITHKUQI CAPITAL LETTER RE",
text! "1058C..10592  ; ID_Start # L&   [7] VITHKUQI CAPITAL LETTER SE..VITHKUQI CAPITAL LETTER XE",
text! "10594..10595  ; ID_Start # L&   [2] VITHKUQI CAPITAL LETTER Y..VITHKUQI CAPITAL LETTER ZE",
text! "10597..105A1  ; ID_Start # L&  [11] VITHKUQI SMALL LETTER A..VITHKUQI SMALL LETTER GA",
text! "105A3..105B1  ; ID_Start # L&  [15] VITHKUQI SMALL LETTER HA..VITHKUQI SMALL LETTER RE",
text! "105B3..105B9  ; ID_Start # L&   [7] VITHKUQI SMALL LETTER SE..VITHKUQI SMALL LETTER XE",
text! "105BB..105BC  ; ID_Start # L&   [2] VITHKUQI SMALL LETTER Y..VITHKUQI SMALL LETTER ZE",
text! "105C0..105F3  ; ID_Start # Lo  [52] TODHRI LETTER A..TODHRI LETTER OO",
text! "10600..10736  ; ID_Start # Lo [311] LINEAR A SIGN AB001..LINEAR A SIGN A664",
text! "10740..10755  ; ID_Start # Lo  [22] LINEAR A SIGN A701 A..LINEAR A SIGN A732 JE",
text! "10760..10767  ; ID_Start # Lo   [8] LINEAR A SIGN A800..LINEAR A SIGN A807",
text! "10780..10785  ; ID_Start # Lm   [6] MODIFIER LETTER SMALL CAPITAL AA..MODIFIER LETTER SMALL B WITH HOOK",
text! "10787..107B0  ; ID_Start # Lm  [42] MODIFIER LETTER SMALL DZ DIGRAPH..MODIFIER LETTER SMALL V WITH RIGHT HOOK",
text! "107B2..107BA  ; ID_Start # Lm   [9] MODIFIER LETTER SMALL CAPITAL Y..MODIFIER LETTER SMALL S WITH CURL",
text! "10800..10805  ; ID_Start # Lo   [6] CYPRIOT SYLLABLE A..CYPRIOT SYLLABLE JA",
text! "10808         ; ID_Start # Lo       CYPRIOT SYLLABLE JO",
text! "1080A..10835  ; ID_Start # Lo  [44] CYPRIOT SYLLABLE KA..CYPRIOT SYLLABLE WO",
text! "10837..10838  ; ID_Start # Lo   [2] CYPRIOT SYLLABLE XA..CYPRIOT SYLLABLE XE",
text! "1083C         ; ID_Start # Lo       CYPRIOT SYLLABLE ZA",
text! "1083F..10855  ; ID_Start # Lo  [23] CYPRIOT SYLLABLE ZO..IMPERIAL ARAMAIC LETTER TAW",
text! "10860..10876  ; ID_Start # Lo  [23] PALMYRENE LETTER ALEPH..PALMYRENE LETTER TAW",
text! "10880..1089E  ; ID_Start # Lo  [31] NABATAEAN LETTER FINAL ALEPH..NABATAEAN LETTER TAW",
text! "108E0..108F2  ; ID_Start # Lo  [19] HATRAN LETTER ALEPH..HATRAN LETTER QOPH",
text! "108F4..108F5  ; ID_Start # Lo   [2] HATRAN LETTER SHIN..HATRAN LETTER TAW",
text! "10900..10915  ; ID_Start # Lo  [22] PHOENICIAN LETTER ALF..PHOENICIAN LETTER TAU",
text! "10920..10939  ; ID_Start # Lo  [26] LYDIAN LETTER A..LYDIAN LETTER C",
text! "10940..10959  ; ID_Start # Lo  [26] SIDETIC LETTER N01..SIDETIC LETTER N26",
text! "10980..109B7  ; ID_Start # Lo  [56] MEROITIC HIEROGLYPHIC LETTER A..MEROITIC CURSIVE LETTER DA",
text! "109BE..109BF  ; ID_Start # Lo   [2] MEROITIC CURSIVE LOGOGRAM RMT..MEROITIC CURSIVE LOGOGRAM IMN",
text! "10A00         ; ID_Start # Lo       KHAROSHTHI LETTER A",
text! "10A10..10A13  ; ID_Start # Lo   [4] KHAROSHTHI LETTER KA..KHAROSHTHI LETTER GHA",
text! "10A15..10A17  ; ID_Start # Lo   [3] KHAROSHTHI LETTER CA..KHAROSHTHI LETTER JA",
text! "10A19..10A35  ; ID_Start # Lo  [29] KHAROSHTHI LETTER NYA..KHAROSHTHI LETTER VHA",
text! "10A60..10A7C  ; ID_Start # Lo  [29] OLD SOUTH ARABIAN LETTER HE..OLD SOUTH ARABIAN LETTER THETH",
text! "10A80..10A9C  ; ID_Start # Lo  [29] OLD NORTH ARABIAN LETTER HEH..OLD NORTH ARABIAN LETTER ZAH",
text! "10AC0..10AC7  ; ID_Start # Lo   [8] MANICHAEAN LETTER ALEPH..MANICHAEAN LETTER WAW",
text! "10AC9..10AE4  ; ID_Start # Lo  [28] MANICHAEAN LETTER ZAYIN..MANICHAEAN LETTER TAW",
text! "10B00..10B35  ; ID_Start # Lo  [54] AVESTAN LETTER A..AVESTAN LETTER HE",
text! "10B40..10B55  ; ID_Start # Lo  [22] INSCRIPTIONAL PARTHIAN LETTER ALEPH..INSCRIPTIONAL PARTHIAN LETTER TAW",
text! "10B60..10B72  ; ID_Start # Lo  [19] INSCRIPTIONAL PAHLAVI LETTER ALEPH..INSCRIPTIONAL PAHLAVI LETTER TAW",
text! "10B80..10B91  ; ID_Start # Lo  [18] PSALTER PAHLAVI LETTER ALEPH..PSALTER PAHLAVI LETTER TAW",
text! "10C00..10C48  ; ID_Start # Lo  [73] OLD TURKIC LETTER ORKHON A..OLD TURKIC LETTER ORKHON BASH",
text! "10C80..10CB2  ; ID_Start # L&  [51] OLD HUNGARIAN CAPITAL LETTER A..OLD HUNGARIAN CAPITAL LETTER US",
text! "10CC0..10CF2  ; ID_Start # L&  [51] OLD HUNGARIAN SMALL LETTER A..OLD HUNGARIAN SMALL LETTER US",
text! "10D00..10D23  ; ID_Start # Lo  [36] HANIFI ROHINGYA LETTER A..HANIFI ROHINGYA MARK NA KHONNA",
text! "10D4A..10D4D  ; ID_Start # Lo   [4] GARAY VOWEL SIGN A..GARAY VOWEL SIGN EE"]

/-- lines 6785-6848 -/
def derivedCore106 : List Nat := [
text! "10D4E         ; ID_Start # Lm       GARAY VOWEL LENGTH MARK",
text! "10D4F         ; ID_Start # Lo       GARAY SUKUN",
text! "10D50..10D65  ; ID_Start # L&  [22] GARAY CAPITAL LETTER A..GARAY CAPITAL LETTER OLD NA",
text! "10D6F         ; ID_Start # Lm       GARAY REDUPLICATION MARK",
text! "10D70..10D85  ; ID_Start # L&  [22] GARAY SMALL LETTER A..GARAY SMALL LETTER OLD NA",
text! "10E80..10EA9  ; ID_Start # Lo  [42] YEZIDI LETTER ELIF..YEZIDI LETTER ET",
text! "10EB0..10EB1  ; ID_Start # Lo   [2] YEZIDI LETTER LAM WITH DOT ABOVE..YEZIDI LETTER YOT WITH CIRCUMFLEX ABOVE",
text! "10EC2..10EC4  ; ID_Start # Lo   [3] ARABIC LETTER DAL WITH TWO DOTS VERTICALLY BELOW..ARABIC LETTER KAF WITH TWO DOTS VERTICALLY BELOW",
text! "10EC5         ; ID_Start # Lm       ARABIC SMALL YEH BARREE WITH TWO DOTS BELOW",
text! "10EC6..10EC7  ; ID_Start # Lo   [2] ARABIC LETTER THIN NOON..ARABIC LETTER YEH WITH FOUR DOTS BELOW",
text! "10F00..10F1C  ; ID_Start # Lo  [29] OLD SOGDIAN LETTER ALEPH..OLD SOGDIAN LETTER FINAL TAW WITH VERTICAL TAIL",
text! "10F27         ; ID_Start # Lo       OLD SOGDIAN LIGATURE AYIN-DALETH",
text! "10F30..10F45  ; ID_Start # Lo  [22] SOGDIAN LETTER ALEPH..SOGDIAN INDEPENDENT SHIN",
text! "10F70..10F81  ; ID_Start # Lo  [18] OLD UYGHUR LETTER ALEPH..OLD UYGHUR LETTER LESH",
text! "10FB0..10FC4  ; ID_Start # Lo  [21] CHORASMIAN LETTER ALEPH..CHORASMIAN LETTER TAW",
text! "10FE0..10FF6  ; ID_Start # Lo  [23] ELYMAIC LETTER ALEPH..ELYMAIC LIGATURE ZAYIN-YODH",
text! "11003..11037  ; ID_Start # Lo  [53] BRAHMI SIGN JIHVAMULIYA..BRAHMI LETTER OLD TAMIL NNNA",
text! "11071..11072  ; ID_Start # Lo   [2] BRAHMI LETTER OLD TAMIL SHORT E..BRAHMI LETTER OLD TAMIL SHORT O",
text! "11075         ; ID_Start # Lo       BRAHMI LETTER OLD TAMIL LLA",
text! "11083..110AF  ; ID_Start # Lo  [45] KAITHI LETTER A..KAITHI LETTER HA",
text! "110D0..110E8  ; ID_Start # Lo  [25] SORA SOMPENG LETTER SAH..SORA SOMPENG LETTER MAE",
text! "11103..11126  ; ID_Start # Lo  [36] CHAKMA LETTER AA..CHAKMA LETTER HAA",
text! "11144         ; ID_Start # Lo       CHAKMA LETTER LHAA",
text! "11147         ; ID_Start # Lo       CHAKMA LETTER VAA",
text! "11150..11172  ; ID_Start # Lo  [35] MAHAJANI LETTER A..MAHAJANI LETTER RRA",
text! "11176         ; ID_Start # Lo       MAHAJANI LIGATURE SHRI",
text! "11183..111B2  ; ID_Start # Lo  [48] SHARADA LETTER A..SHARADA LETTER HA",
text! "111C1..111C4  ; ID_Start # Lo   [4] SHARADA SIGN AVAGRAHA..SHARADA OM",
text! "111DA         ; ID_Start # Lo       SHARADA EKAM",
text! "111DC         ; ID_Start # Lo       SHARADA HEADSTROKE",
text! "11200..11211  ; ID_Start # Lo  [18] KHOJKI LETTER A..KHOJKI LETTER JJA",
text! "11213..1122B  ; ID_Start # Lo  [25] KHOJKI LETTER NYA..KHOJKI LETTER LLA",
text! "1123F..11240  ; ID_Start # Lo   [2] KHOJKI LETTER QA..KHOJKI LETTER SHORT I",
text! "11280..11286  ; ID_Start # Lo   [7] MULTANI LETTER A..MULTANI LETTER GA",
text! "11288         ; ID_Start # Lo       MULTANI LETTER GHA",
text! "1128A..1128D  ; ID_Start # Lo   [4] MULTANI LETTER CA..MULTANI LETTER JJA",
text! "1128F..1129D  ; ID_Start # Lo  [15] MULTANI LETTER NYA..MULTANI LETTER BA",
text! "1129F..112A8  ; ID_Start # Lo  [10] MULTANI LETTER BHA..MULTANI LETTER RHA",
text! "112B0..112DE  ; ID_Start # Lo  [47] KHUDAWADI LETTER A..KHUDAWADI LETTER HA",
text! "11305..1130C  ; ID_Start # Lo   [8] GRANTHA LETTER A..GRANTHA LETTER VOCALIC L",
text! "1130F..11310  ; ID_Start # Lo   [2] GRANTHA LETTER EE..GRANTHA LETTER AI",
text! "11313..11328  ; ID_Start # Lo  [22] GRANTHA LETTER OO..GRANTHA LETTER NA",
text! "1132A..11330  ; ID_Start # Lo   [7] GRANTHA LETTER PA..GRANTHA LETTER RA",
text! "11332..11333  ; ID_Start # Lo   [2] GRANTHA LETTER LA..GRANTHA LETTER LLA",
text! "11335..11339  ; ID_Start # Lo   [5] GRANTHA LETTER VA..GRANTHA LETTER HA",
text! "1133D         ; ID_Start # Lo       GRANTHA SIGN AVAGRAHA",
text! "11350         ; ID_Start # Lo       GRANTHA OM",
text! "1135D..11361  ; ID_Start # Lo   [5] GRANTHA SIGN PLUTA..GRANTHA LETTER VOCALIC LL",
text! "11380..11389  ; ID_Start # Lo  [10] TULU-TIGALARI LETTER A..TULU-TIGALARI LETTER VOCALIC LL",
text! "1138B         ; ID_Start # Lo       TULU-TIGALARI LETTER EE",
text! "1138E         ; ID_Start # Lo       TULU-TIGALARI LETTER AI",
text! "11390..113B5  ; ID_Start # Lo  [38] TULU-TIGALARI LETTER OO..TULU-TIGALARI LETTER LLLA",
text! "113B7         ; ID_Start # Lo       TULU-TIGALARI SIGN AVAGRAHA",
text! "113D1         ; ID_Start # Lo       TULU-TIGALARI REPHA",
text! "113D3         ; ID_Start # Lo       TULU-TIGALARI SIGN PLUTA",
text! "11400..11434  ; ID_Start # Lo  [53] NEWA LETTER A..NEWA LETTER HA",
text! "11447..1144A  ; ID_Start # Lo   [4] NEWA SIGN AVAGRAHA..NEWA SIDDHI",
text! "1145F..11461  ; ID_Start # Lo   [3] NEWA LETTER VEDIC ANUSVARA..NEWA SIGN UPADHMANIYA",
text! "11480..114AF  ; ID_Start # Lo  [48] TIRHUTA ANJI..TIRHUTA LETTER HA",
text! "114C4..114C5  ; ID_Start # Lo   [2] TIRHUTA SIGN AVAGRAHA..TIRHUTA GVANG",
text! "114C7         ; ID_Start # Lo       TIRHUTA OM",
text! "11580..115AE  ; ID_Start # Lo  [47] SIDDHAM LETTER A..SIDDHAM LETTER HA",
text! "115D8..115DB  ; ID_Start # Lo   [4] SIDDHAM LETTER THREE-CIRCLE ALTERNATE I..SIDDHAM LETTER ALTERNATE U",
text! "11600..1162F  ; ID_Start # Lo  [48] MODI LETTER A..MODI LETTER LLA"]

/-- lines 6849-6912 -/
def derivedCore107 : List Nat := [
text! "11644         ; ID_Start # Lo       MODI SIGN HUVA",
text! "11680..116AA  ; ID_Start # Lo  [43] TAKRI LETTER A..TAKRI LETTER RRA",
text! "116B8         ; ID_Start # Lo       TAKRI LETTER ARCHAIC KHA",
text! "11700..1171A  ; ID_Start # Lo  [27] AHOM LETTER KA..AHOM LETTER ALTERNATE BA",
text! "11740..11746  ; ID_Start # Lo   [7] AHOM LETTER CA..AHOM LETTER LLA",
text! "11800..1182B  ; ID_Start # Lo  [44] DOGRA LETTER A..DOGRA LETTER RRA",
text! "118A0..118DF  ; ID_Start # L&  [64] WARANG CITI CAPITAL LETTER NGAA..WARANG CITI SMALL LETTER VIYO",
text! "118FF..11906  ; ID_Start # Lo   [8] WARANG CITI OM..DIVES AKURU LETTER E",
text! "11909         ; ID_Start # Lo       DIVES AKURU LETTER O",
text! "1190C..11913  ; ID_Start # Lo   [8] DIVES AKURU LETTER KA..DIVES AKURU LETTER JA",
text! "11915..11916  ; ID_Start # Lo   [2] DIVES AKURU LETTER NYA..DIVES AKURU LETTER TTA",
text! "11918..1192F  ; ID_Start # Lo  [24] DIVES AKURU LETTER DDA..DIVES AKURU LETTER ZA",
text! "1193F         ; ID_Start # Lo       DIVES AKURU PREFIXED NASAL SIGN",
text! "11941         ; ID_Start # Lo       DIVES AKURU INITIAL RA",
text! "119A0..119A7  ; ID_Start # Lo   [8] NANDINAGARI LETTER A..NANDINAGARI LETTER VOCALIC RR",
text! "119AA..119D0  ; ID_Start # Lo  [39] NANDINAGARI LETTER E..NANDINAGARI LETTER RRA",
text! "119E1         ; ID_Start # Lo       NANDINAGARI SIGN AVAGRAHA",
text! "119E3         ; ID_Start # Lo       NANDINAGARI HEADSTROKE",
text! "11A00         ; ID_Start # Lo       ZANABAZAR SQUARE LETTER A",
text! "11A0B..11A32  ; ID_Start # Lo  [40] ZANABAZAR SQUARE LETTER KA..ZANABAZAR SQUARE LETTER KSSA",
text! "11A3A         ; ID_Start # Lo       ZANABAZAR SQUARE CLUSTER-INITIAL LETTER RA",
text! "11A50         ; ID_Start # Lo       SOYOMBO LETTER A",
text! "11A5C..11A89  ; ID_Start # Lo  [46] SOYOMBO LETTER KA..SOYOMBO CLUSTER-INITIAL LETTER SA",
text! "11A9D         ; ID_Start # Lo       SOYOMBO MARK PLUTA",
text! "11AB0..11AF8  ; ID_Start # Lo  [73] CANADIAN SYLLABICS NATTILIK HI..PAU CIN HAU GLOTTAL STOP FINAL",
text! "11BC0..11BE0  ; ID_Start # Lo  [33] SUNUWAR LETTER DEVI..SUNUWAR LETTER KLOKO",
text! "11C00..11C08  ; ID_Start # Lo   [9] BHAIKSUKI LETTER A..BHAIKSUKI LETTER VOCALIC L",
text! "11C0A..11C2E  ; ID_Start # Lo  [37] BHAIKSUKI LETTER E..BHAIKSUKI LETTER HA",
text! "11C40         ; ID_Start # Lo       BHAIKSUKI SIGN AVAGRAHA",
text! "11C72..11C8F  ; ID_Start # Lo  [30] MARCHEN LETTER KA..MARCHEN LETTER A",
text! "11D00..11D06  ; ID_Start # Lo   [7] MASARAM GONDI LETTER A..MASARAM GONDI LETTER E",
text! "11D08..11D09  ; ID_Start # Lo   [2] MASARAM GONDI LETTER AI..MASARAM GONDI LETTER O",
text! "11D0B..11D30  ; ID_Start # Lo  [38] MASARAM GONDI LETTER AU..MASARAM GONDI LETTER TRA",
text! "11D46         ; ID_Start # Lo       MASARAM GONDI REPHA",
text! "11D60..11D65  ; ID_Start # Lo   [6] GUNJALA GONDI LETTER A..GUNJALA GONDI LETTER UU",
text! "11D67..11D68  ; ID_Start # Lo   [2] GUNJALA GONDI LETTER EE..GUNJALA GONDI LETTER AI",
text! "11D6A..11D89  ; ID_Start # Lo  [32] GUNJALA GONDI LETTER OO..GUNJALA GONDI LETTER SA",
text! "11D98         ; ID_Start # Lo       GUNJALA GONDI OM",
text! "11DB0..11DD8  ; ID_Start # Lo  [41] TOLONG SIKI LETTER I..TOLONG SIKI LETTER RRH",
text! "11DD9         ; ID_Start # Lm       TOLONG SIKI SIGN SELA",
text! "11DDA..11DDB  ; ID_Start # Lo   [2] TOLONG SIKI SIGN HECAKA..TOLONG SIKI UNGGA",
text! "11EE0..11EF2  ; ID_Start # Lo  [19] MAKASAR LETTER KA..MAKASAR ANGKA",
text! "11F02         ; ID_Start # Lo       KAWI SIGN REPHA",
text! "11F04..11F10  ; ID_Start # Lo  [13] KAWI LETTER A..KAWI LETTER O",
text! "11F12..11F33  ; ID_Start # Lo  [34] KAWI LETTER KA..KAWI LETTER JNYA",
text! "11FB0         ; ID_Start # Lo       LISU LETTER YHA",
text! "12000..12399  ; ID_Start # Lo [922] CUNEIFORM SIGN A..CUNEIFORM SIGN U U",
text! "12400..1246E  ; ID_Start # Nl [111] CUNEIFORM NUMERIC SIGN TWO ASH..CUNEIFORM NUMERIC SIGN NINE U VARIANT FORM",
text! "12480..12543  ; ID_Start # Lo [196] CUNEIFORM SIGN AB TIMES NUN TENU..CUNEIFORM SIGN ZU5 TIMES THREE DISH TENU",
text! "12F90..12FF0  ; ID_Start # Lo  [97] CYPRO-MINOAN SIGN CM001..CYPRO-MINOAN SIGN CM114",
text! "13000..1342F  ; ID_Start # Lo [1072] EGYPTIAN HIEROGLYPH A001..EGYPTIAN HIEROGLYPH V011D",
text! "13441..13446  ; ID_Start # Lo   [6] EGYPTIAN HIEROGLYPH FULL BLANK..EGYPTIAN HIEROGLYPH WIDE LOST SIGN",
text! "13460..143FA  ; ID_Start # Lo [3995] EGYPTIAN HIEROGLYPH-13460..EGYPTIAN HIEROGLYPH-143FA",
text! "14400..14646  ; ID_Start # Lo [583] ANATOLIAN HIEROGLYPH A001..ANATOLIAN HIEROGLYPH A530",
text! "16100..1611D  ; ID_Start # Lo  [30] GURUNG KHEMA LETTER A..GURUNG KHEMA LETTER SA",
text! "16800..16A38  ; ID_Start # Lo [569] BAMUM LETTER PHASE-A NGKUE MFON..BAMUM LETTER PHASE-F VUEQ",
text! "16A40..16A5E  ; ID_Start # Lo  [31] MRO LETTER TA..MRO LETTER TEK",
text! "16A70..16ABE  ; ID_Start # Lo  [79] TANGSA LETTER OZ..TANGSA LETTER ZA",
text! "16AD0..16AED  ; ID_Start # Lo  [30] BASSA VAH LETTER ENNI..BASSA VAH LETTER I",
text! "16B00..16B2F  ; ID_Start # Lo  [48] PAHAWH HMONG VOWEL KEEB..PAHAWH HMONG CONSONANT CAU",
text! "16B40..16B43  ; ID_Start # Lm   [4] PAHAWH HMONG SIGN VOS SEEV..PAHAWH HMONG SIGN IB YAM",
text! "16B63..16B77  ; ID_Start # Lo  [21] PAHAWH HMONG SIGN VOS LUB..PAHAWH HMONG SIGN CIM NRES TOS",
text! "16B7D..16B8F  ; ID_Start # Lo  [19] PAHAWH HMONG CLAN SIGN TSHEEJ..PAHAWH HMONG CLAN SIGN VWJ",
text! "16D40..16D42  ; ID_Start # Lm   [3] KIRAT RAI SIGN ANUSVARA..KIRAT RAI SIGN VISARGA"]

/-- lines 6913-6976 -/
def derivedCore108 : List Nat := [
text! "16D43..16D6A  ; ID_Start # Lo  [40] KIRAT RAI LETTER A..KIRAT RAI VOWEL SIGN AU",
text! "16D6B..16D6C  ; ID_Start # Lm   [2] KIRAT RAI SIGN VIRAMA..KIRAT RAI SIGN SAAT",
text! "16E40..16E7F  ; ID_Start # L&  [64] MEDEFAIDRIN CAPITAL LETTER M..MEDEFAIDRIN SMALL LETTER Y",
text! "16EA0..16EB8  ; ID_Start # L&  [25] BERIA ERFE CAPITAL LETTER ARKAB..BERIA ERFE CAPITAL LETTER AY",
text! "16EBB..16ED3  ; ID_Start # L&  [25] BERIA ERFE SMALL LETTER ARKAB..BERIA ERFE SMALL LETTER AY",
text! "16F00..16F4A  ; ID_Start # Lo  [75] MIAO LETTER PA..MIAO LETTER RTE",
text! "16F50         ; ID_Start # Lo       MIAO LETTER NASALIZATION",
text! "16F93..16F9F  ; ID_Start # Lm  [13] MIAO LETTER TONE-2..MIAO LETTER REFORMED TONE-8",
text! "16FE0..16FE1  ; ID_Start # Lm   [2] TANGUT ITERATION MARK..NUSHU ITERATION MARK",
text! "16FE3         ; ID_Start # Lm       OLD CHINESE ITERATION MARK",
text! "16FF2..16FF3  ; ID_Start # Lm   [2] CHINESE SMALL SIMPLIFIED ER..CHINESE SMALL TRADITIONAL ER",
text! "16FF4..16FF6  ; ID_Start # Nl   [3] YANGQIN SIGN SLOW ONE BEAT..YANGQIN SIGN SLOW TWO BEATS",
text! "17000..18CD5  ; ID_Start # Lo [7382] TANGUT IDEOGRAPH-17000..KHITAN SMALL SCRIPT CHARACTER-18CD5",
text! "18CFF..18D1E  ; ID_Start # Lo  [32] KHITAN SMALL SCRIPT CHARACTER-18CFF..TANGUT IDEOGRAPH-18D1E",
text! "18D80..18DF2  ; ID_Start # Lo [115] TANGUT COMPONENT-769..TANGUT COMPONENT-883",
text! "1AFF0..1AFF3  ; ID_Start # Lm   [4] KATAKANA LETTER MINNAN TONE-2..KATAKANA LETTER MINNAN TONE-5",
text! "1AFF5..1AFFB  ; ID_Start # Lm   [7] KATAKANA LETTER MINNAN TONE-7..KATAKANA LETTER MINNAN NASALIZED TONE-5",
text! "1AFFD..1AFFE  ; ID_Start # Lm   [2] KATAKANA LETTER MINNAN NASALIZED TONE-7..KATAKANA LETTER MINNAN NASALIZED TONE-8",
text! "1B000..1B122  ; ID_Start # Lo [291] KATAKANA LETTER ARCHAIC E..KATAKANA LETTER ARCHAIC WU",
text! "1B132         ; ID_Start # Lo       HIRAGANA LETTER SMALL KO",
text! "1B150..1B152  ; ID_Start # Lo   [3] HIRAGANA LETTER SMALL WI..HIRAGANA LETTER SMALL WO",
text! "1B155         ; ID_Start # Lo       KATAKANA LETTER SMALL KO",
text! "1B164..1B167  ; ID_Start # Lo   [4] KATAKANA LETTER SMALL WI..KATAKANA LETTER SMALL N",
text! "1B170..1B2FB  ; ID_Start # Lo [396] NUSHU CHARACTER-1B170..NUSHU CHARACTER-1B2FB",
text! "1BC00..1BC6A  ; ID_Start # Lo [107] DUPLOYAN LETTER H..DUPLOYAN LETTER VOCALIC M",
text! "1BC70..1BC7C  ; ID_Start # Lo  [13] DUPLOYAN AFFIX LEFT HORIZONTAL SECANT..DUPLOYAN AFFIX ATTACHED TANGENT HOOK",
text! "1BC80..1BC88  ; ID_Start # Lo   [9] DUPLOYAN AFFIX HIGH ACUTE..DUPLOYAN AFFIX HIGH VERTICAL",
text! "1BC90..1BC99  ; ID_Start # Lo  [10] DUPLOYAN AFFIX LOW ACUTE..DUPLOYAN AFFIX LOW ARROW",
text! "1D400..1D454  ; ID_Start # L&  [85] MATHEMATICAL BOLD CAPITAL A..MATHEMATICAL ITALIC SMALL G",
text! "1D456..1D49C  ; ID_Start # L&  [71] MATHEMATICAL ITALIC SMALL I..MATHEMATICAL SCRIPT CAPITAL A",
text! "1D49E..1D49F  ; ID_Start # L&   [2] MATHEMATICAL SCRIPT CAPITAL C..MATHEMATICAL SCRIPT CAPITAL D",
text! "1D4A2         ; ID_Start # L&       MATHEMATICAL SCRIPT CAPITAL G",
text! "1D4A5..1D4A6  ; ID_Start # L&   [2] MATHEMATICAL SCRIPT CAPITAL J..MATHEMATICAL SCRIPT CAPITAL K",
text! "1D4A9..1D4AC  ; ID_Start # L&   [4] MATHEMATICAL SCRIPT CAPITAL N..MATHEMATICAL SCRIPT CAPITAL Q",
text! "1D4AE..1D4B9  ; ID_Start # L&  [12] MATHEMATICAL SCRIPT CAPITAL S..MATHEMATICAL SCRIPT SMALL D",
text! "1D4BB         ; ID_Start # L&       MATHEMATICAL SCRIPT SMALL F",
text! "1D4BD..1D4C3  ; ID_Start # L&   [7] MATHEMATICAL SCRIPT SMALL H..MATHEMATICAL SCRIPT SMALL N",
text! "1D4C5..1D505  ; ID_Start # L&  [65] MATHEMATICAL SCRIPT SMALL P..MATHEMATICAL FRAKTUR CAPITAL B",
text! "1D507..1D50A  ; ID_Start # L&   [4] MATHEMATICAL FRAKTUR CAPITAL D..MATHEMATICAL FRAKTUR CAPITAL G",
text! "1D50D..1D514  ; ID_Start # L&   [8] MATHEMATICAL FRAKTUR CAPITAL J..MATHEMATICAL FRAKTUR CAPITAL Q",
text! "1D516..1D51C  ; ID_Start # L&   [7] MATHEMATICAL FRAKTUR CAPITAL S..MATHEMATICAL FRAKTUR CAPITAL Y",
text! "1D51E..1D539  ; ID_Start # L&  [28] MATHEMATICAL FRAKTUR SMALL A..MATHEMATICAL DOUBLE-STRUCK CAPITAL B",
text! "1D53B..1D53E  ; ID_Start # L&   [4] MATHEMATICAL DOUBLE-STRUCK CAPITAL D..MATHEMATICAL DOUBLE-STRUCK CAPITAL G",
text! "1D540..1D544  ; ID_Start # L&   [5] MATHEMATICAL DOUBLE-STRUCK CAPITAL I..MATHEMATICAL DOUBLE-STRUCK CAPITAL M",
text! "1D546         ; ID_Start # L&       MATHEMATICAL DOUBLE-STRUCK CAPITAL O",
text! "1D54A..1D550  ; ID_Start # L&   [7] MATHEMATICAL DOUBLE-STRUCK CAPITAL S..MATHEMATICAL DOUBLE-STRUCK CAPITAL Y",
text! "1D552..1D6A5  ; ID_Start # L& [340] MATHEMATICAL DOUBLE-STRUCK SMALL A..MATHEMATICAL ITALIC SMALL DOTLESS J",
text! "1D6A8..1D6C0  ; ID_Start # L&  [25] MATHEMATICAL BOLD CAPITAL ALPHA..MATHEMATICAL BOLD CAPITAL OMEGA",
text! "1D6C2..1D6DA  ; ID_Start # L&  [25] MATHEMATICAL BOLD SMALL ALPHA..MATHEMATICAL BOLD SMALL OMEGA",
text! "1D6DC..1D6FA  ; ID_Start # L&  [31] MATHEMATICAL BOLD EPSILON SYMBOL..MATHEMATICAL ITALIC CAPITAL OMEGA",
text! "1D6FC..1D714  ; ID_Start # L&  [25] MATHEMATICAL ITALIC SMALL ALPHA..MATHEMATICAL ITALIC SMALL OMEGA",
text! "1D716..1D734  ; ID_Start # L&  [31] MATHEMATICAL ITALIC EPSILON SYMBOL..MATHEMATICAL BOLD ITALIC CAPITAL OMEGA",
text! "1D736..1D74E  ; ID_Start # L&  [25] MATHEMATICAL BOLD ITALIC SMALL ALPHA..MATHEMATICAL BOLD ITALIC SMALL OMEGA",
text! "1D750..1D76E  ; ID_Start # L&  [31] MATHEMATICAL BOLD ITALIC EPSILON SYMBOL..MATHEMATICAL SANS-SERIF BOLD CAPITAL OMEGA",
text! "1D770..1D788  ; ID_Start # L&  [25] MATHEMATICAL SANS-SERIF BOLD SMALL ALPHA..MATHEMATICAL SANS-SERIF BOLD SMALL OMEGA",
text! "1D78A..1D7A8  ; ID_Start # L&  [31] MATHEMATICAL SANS-SERIF BOLD EPSILON SYMBOL..MATHEMATICAL SANS-SERIF BOLD ITALIC CAPITAL OMEGA",
text! "1D7AA..1D7C2  ; ID_Start # L&  [25] MATHEMATICAL SANS-SERIF BOLD ITALIC SMALL ALPHA..MATHEMATICAL SANS-SERIF BOLD ITALIC SMALL OMEGA",
text! "1D7C4..1D7CB  ; ID_Start # L&   [8] MATHEMATICAL SANS-SERIF BOLD ITALIC EPSILON SYMBOL..MATHEMATICAL BOLD SMALL DIGAMMA",
text! "1DF00..1DF09  ; ID_Start # L&  [10] LATIN SMALL LETTER FENG DIGRAPH WITH TRILL..LATIN SMALL LETTER T WITH HOOK AND RETROFLEX HOOK",
text! "1DF0A         ; ID_Start # Lo       LATIN LETTER RETROFLEX CLICK WITH RETROFLEX HOOK",
text! "1DF0B..1DF1E  ; ID_Start # L&  [20] LATIN SMALL LETTER ESH WITH DOUBLE BAR..LATIN SMALL LETTER S WITH CURL",
text! "1DF25..1DF2A  ; ID_Start # L&   [6] LATIN SMALL LETTER D WITH MID-HEIGHT LEFT HOOK..LATIN SMALL LETTER T WITH MID-HEIGHT LEFT HOOK",
text! "1E030..1E06D  ; ID_Start # Lm  [62] MODIFIER LETTER CYRILLIC SMALL A..MODIFIER LETTER CYRILLIC SMALL STRAIGHT U WITH STROKE",
text! "1E100..1E12C  ; ID_Start # Lo  [45] NYIAKENG PUACHUE HMONG LETTER MA..NYIAKENG PUACHUE HMONG LETTER W"]

/-- lines 6977-7040 -/
def derivedCore109 : List Nat := [
text! "1E137..1E13D  ; ID_Start # Lm   [7] NYIAKENG PUACHUE HMONG SIGN FOR PERSON..NYIAKENG PUACHUE HMONG SYLLABLE LENGTHENER",
text! "1E14E         ; ID_Start # Lo       NYIAKENG PUACHUE HMONG LOGOGRAM NYAJ",
text! "1E290..1E2AD  ; ID_Start # Lo  [30] TOTO LETTER PA..TOTO LETTER A",
text! "1E2C0..1E2EB  ; ID_Start # Lo  [44] WANCHO LETTER AA..WANCHO LETTER YIH",
text! "1E4D0..1E4EA  ; ID_Start # Lo  [27] NAG MUNDARI LETTER O..NAG MUNDARI LETTER ELL",
text! "1E4EB         ; ID_Start # Lm       NAG MUNDARI SIGN OJOD",
text! "1E5D0..1E5ED  ; ID_Start # Lo  [30] OL ONAL LETTER O..OL ONAL LETTER EG",
text! "1E5F0         ; ID_Start # Lo       OL ONAL SIGN HODDOND",
text! "1E6C0..1E6DE  ; ID_Start # Lo  [31] TAI YO LETTER LOW KO..TAI YO LETTER HIGH KVO",
text! "1E6E0..1E6E2  ; ID_Start # Lo   [3] TAI YO LETTER AA..TAI YO LETTER UE",
text! "1E6E4..1E6E5  ; ID_Start # Lo   [2] TAI YO LETTER U..TAI YO LETTER AE",
text! "1E6E7..1E6ED  ; ID_Start # Lo   [7] TAI YO LETTER O..TAI YO LETTER AUE",
text! "1E6F0..1E6F4  ; ID_Start # Lo   [5] TAI YO LETTER AN..TAI YO LETTER AP",
text! "1E6FE         ; ID_Start # Lo       TAI YO SYMBOL MUEANG",
text! "1E6FF         ; ID_Start # Lm       TAI YO XAM LAI",
text! "1E7E0..1E7E6  ; ID_Start # Lo   [7] ETHIOPIC SYLLABLE HHYA..ETHIOPIC SYLLABLE HHYO",
text! "1E7E8..1E7EB  ; ID_Start # Lo   [4] ETHIOPIC SYLLABLE GURAGE HHWA..ETHIOPIC SYLLABLE HHWE",
text! "1E7ED..1E7EE  ; ID_Start # Lo   [2] ETHIOPIC SYLLABLE GURAGE MWI..ETHIOPIC SYLLABLE GURAGE MWEE",
text! "1E7F0..1E7FE  ; ID_Start # Lo  [15] ETHIOPIC SYLLABLE GURAGE QWI..ETHIOPIC SYLLABLE GURAGE PWEE",
text! "1E800..1E8C4  ; ID_Start # Lo [197] MENDE KIKAKUI SYLLABLE M001 KI..MENDE KIKAKUI SYLLABLE M060 NYON",
text! "1E900..1E943  ; ID_Start # L&  [68] ADLAM CAPITAL LETTER ALIF..ADLAM SMALL LETTER SHA",
text! "1E94B         ; ID_Start # Lm       ADLAM NASALIZATION MARK",
text! "1EE00..1EE03  ; ID_Start # Lo   [4] ARABIC MATHEMATICAL ALEF..ARABIC MATHEMATICAL DAL",
text! "1EE05..1EE1F  ; ID_Start # Lo  [27] ARABIC MATHEMATICAL WAW..ARABIC MATHEMATICAL DOTLESS QAF",
text! "1EE21..1EE22  ; ID_Start # Lo   [2] ARABIC MATHEMATICAL INITIAL BEH..ARABIC MATHEMATICAL INITIAL JEEM",
text! "1EE24         ; ID_Start # Lo       ARABIC MATHEMATICAL INITIAL HEH",
text! "1EE27         ; ID_Start # Lo       ARABIC MATHEMATICAL INITIAL HAH",
text! "1EE29..1EE32  ; ID_Start # Lo  [10] ARABIC MATHEMATICAL INITIAL YEH..ARABIC MATHEMATICAL INITIAL QAF",
text! "1EE34..1EE37  ; ID_Start # Lo   [4] ARABIC MATHEMATICAL INITIAL SHEEN..ARABIC MATHEMATICAL INITIAL KHAH",
text! "1EE39         ; ID_Start # Lo       ARABIC MATHEMATICAL INITIAL DAD",
text! "1EE3B         ; ID_Start # Lo       ARABIC MATHEMATICAL INITIAL GHAIN",
text! "1EE42         ; ID_Start # Lo       ARABIC MATHEMATICAL TAILED JEEM",
text! "1EE47         ; ID_Start # Lo       ARABIC MATHEMATICAL TAILED HAH",
text! "1EE49         ; ID_Start # Lo       ARABIC MATHEMATICAL TAILED YEH",
text! "1EE4B         ; ID_Start # Lo       ARABIC MATHEMATICAL TAILED LAM",
text! "1EE4D..1EE4F  ; ID_Start # Lo   [3] ARABIC MATHEMATICAL TAILED NOON..ARABIC MATHEMATICAL TAILED AIN",
text! "1EE51..1EE52  ; ID_Start # Lo   [2] ARABIC MATHEMATICAL TAILED SAD..ARABIC MATHEMATICAL TAILED QAF",
text! "1EE54         ; ID_Start # Lo       ARABIC MATHEMATICAL TAILED SHEEN",
text! "1EE57         ; ID_Start # Lo       ARABIC MATHEMATICAL TAILED KHAH",
text! "1EE59         ; ID_Start # Lo       ARABIC MATHEMATICAL TAILED DAD",
text! "1EE5B         ; ID_Start # Lo       ARABIC MATHEMATICAL TAILED GHAIN",
text! "1EE5D         ; ID_Start # Lo       ARABIC MATHEMATICAL TAILED DOTLESS NOON",
text! "1EE5F         ; ID_Start # Lo       ARABIC MATHEMATICAL TAILED DOTLESS QAF",
text! "1EE61..1EE62  ; ID_Start # Lo   [2] ARABIC MATHEMATICAL STRETCHED BEH..ARABIC MATHEMATICAL STRETCHED JEEM",
text! "1EE64         ; ID_Start # Lo       ARABIC MATHEMATICAL STRETCHED HEH",
text! "1EE67..1EE6A  ; ID_Start # Lo   [4] ARABIC MATHEMATICAL STRETCHED HAH..ARABIC MATHEMATICAL STRETCHED KAF",
text! "1EE6C..1EE72  ; ID_Start # Lo   [7] ARABIC MATHEMATICAL STRETCHED MEEM..ARABIC MATHEMATICAL STRETCHED QAF",
text! "1EE74..1EE77  ; ID_Start # Lo   [4] ARABIC MATHEMATICAL STRETCHED SHEEN..ARABIC MATHEMATICAL STRETCHED KHAH",
text! "1EE79..1EE7C  ; ID_Start # Lo   [4] ARABIC MATHEMATICAL STRETCHED DAD..ARABIC MATHEMATICAL STRETCHED DOTLESS BEH",
text! "1EE7E         ; ID_Start # Lo       ARABIC MATHEMATICAL STRETCHED DOTLESS FEH",
text! "1EE80..1EE89  ; ID_Start # Lo  [10] ARABIC MATHEMATICAL LOOPED ALEF..ARABIC MATHEMATICAL LOOPED YEH",
text! "1EE8B..1EE9B  ; ID_Start # Lo  [17] ARABIC MATHEMATICAL LOOPED LAM..ARABIC MATHEMATICAL LOOPED GHAIN",
text! "1EEA1..1EEA3  ; ID_Start # Lo   [3] ARABIC MATHEMATICAL DOUBLE-STRUCK BEH..ARABIC MATHEMATICAL DOUBLE-STRUCK DAL",
text! "1EEA5..1EEA9  ; ID_Start # Lo   [5] ARABIC MATHEMATICAL DOUBLE-STRUCK WAW..ARABIC MATHEMATICAL DOUBLE-STRUCK YEH",
text! "1EEAB..1EEBB  ; ID_Start # Lo  [17] ARABIC MATHEMATICAL DOUBLE-STRUCK LAM..ARABIC MATHEMATICAL DOUBLE-STRUCK GHAIN",
text! "20000..2A6DF  ; ID_Start # Lo [42720] CJK UNIFIED IDEOGRAPH-20000..CJK UNIFIED IDEOGRAPH-2A6DF",
text! "2A700..2B81D  ; ID_Start # Lo [4382] CJK UNIFIED IDEOGRAPH-2A700..CJK UNIFIED IDEOGRAPH-2B81D",
text! "2B820..2CEAD  ; ID_Start # Lo [5774] CJK UNIFIED IDEOGRAPH-2B820..CJK UNIFIED IDEOGRAPH-2CEAD",
text! "2CEB0..2EBE0  ; ID_Start # Lo [7473] CJK UNIFIED IDEOGRAPH-2CEB0..CJK UNIFIED IDEOGRAPH-2EBE0",
text! "2EBF0..2EE5D  ; ID_Start # Lo [622] CJK UNIFIED IDEOGRAPH-2EBF0..CJK UNIFIED IDEOGRAPH-2EE5D",
text! "2F800..2FA1D  ; ID_Start # Lo [542] CJK COMPATIBILITY IDEOGRAPH-2F800..CJK COMPATIBILITY IDEOGRAPH-2FA1D",
text! "30000..3134A  ; ID_Start # Lo [4939] CJK UNIFIED IDEOGRAPH-30000..CJK UNIFIED IDEOGRAPH-3134A",
text! "31350..33479  ; ID_Start # Lo [8490] CJK UNIFIED IDEOGRAPH-31350..CJK UNIFIED IDEOGRAPH-33479",
text! ""]

/-- lines 7041-7104 -/
def derivedCore110 : List Nat := [
text! "# Total code points: 145916",
text! "",
text! "# ================================================",
text! "",
text! "# Derived Property: ID_Continue",
text! "#  Characters that can continue an identifier.",
text! "#  Generated from:",
text! "#      ID_Start",
text! "#    + Mn + Mc + Nd + Pc",
text! "#    + Other_ID_Continue",
text! "#    - Pattern_Syntax",
text! "#    - Pattern_White_Space",
text! "#  NOTE: See UAX #31 for more information",
text! "",
text! "0030..0039    ; ID_Continue # Nd  [10] DIGIT ZERO..DIGIT NINE",
text! "0041..005A    ; ID_Continue # L&  [26] LATIN CAPITAL LETTER A..LATIN CAPITAL LETTER Z",
text! "005F          ; ID_Continue # Pc       LOW LINE",
text! "0061..007A    ; ID_Continue # L&  [26] LATIN SMALL LETTER A..LATIN SMALL LETTER Z",
text! "00AA          ; ID_Continue # Lo       FEMININE ORDINAL INDICATOR",
text! "00B5          ; ID_Continue # L&       MICRO SIGN",
text! "00B7          ; ID_Continue # Po       MIDDLE DOT",
text! "00BA          ; ID_Continue # Lo       MASCULINE ORDINAL INDICATOR",
text! "00C0..00D6    ; ID_Continue # L&  [23] LATIN CAPITAL LETTER A WITH GRAVE..LATIN CAPITAL LETTER O WITH DIAERESIS",
text! "00D8..00F6    ; ID_Continue # L&  [31] LATIN CAPITAL LETTER O WITH STROKE..LATIN SMALL LETTER O WITH DIAERESIS",
text! "00F8..01BA    ; ID_Continue # L& [195] LATIN SMALL LETTER O WITH STROKE..LATIN SMALL LETTER EZH WITH TAIL",
text! "01BB          ; ID_Continue # Lo       LATIN LETTER TWO WITH STROKE",
text! "01BC..01BF    ; ID_Continue # L&   [4] LATIN CAPITAL LETTER TONE FIVE..LATIN LETTER WYNN",
text! "01C0..01C3    ; ID_Continue # Lo   [4] LATIN LETTER DENTAL CLICK..LATIN LETTER RETROFLEX CLICK",
text! "01C4..0293    ; ID_Continue # L& [208] LATIN CAPITAL LETTER DZ WITH CARON..LATIN SMALL LETTER EZH WITH CURL",
text! "0294..0295    ; ID_Continue # Lo   [2] LATIN LETTER GLOTTAL STOP..LATIN LETTER PHARYNGEAL VOICED FRICATIVE",
text! "0296..02AF    ; ID_Continue # L&  [26] LATIN LETTER INVERTED GLOTTAL STOP..LATIN SMALL LETTER TURNED H WITH FISHHOOK AND TAIL",
text! "02B0..02C1    ; ID_Continue # Lm  [18] MODIFIER LETTER SMALL H..MODIFIER LETTER REVERSED GLOTTAL STOP",
text! "02C6..02D1    ; ID_Continue # Lm  [12] MODIFIER LETTER CIRCUMFLEX ACCENT..MODIFIER LETTER HALF TRIANGULAR COLON",
text! "02E0..02E4    ; ID_Continue # Lm   [5] MODIFIER LETTER SMALL GAMMA..MODIFIER LETTER SMALL REVERSED GLOTTAL STOP",
text! "02EC          ; ID_Continue # Lm       MODIFIER LETTER VOICING",
text! "02EE          ; ID_Continue # Lm       MODIFIER LETTER DOUBLE APOSTROPHE",
text! "0300..036F    ; ID_Continue # Mn [112] COMBINING GRAVE ACCENT..COMBINING LATIN SMALL LETTER X",
text! "0370..0373    ; ID_Continue # L&   [4] GREEK CAPITAL LETTER HETA..GREEK SMALL LETTER ARCHAIC SAMPI",
text! "0374          ; ID_Continue # Lm       GREEK NUMERAL SIGN",
text! "0376..0377    ; ID_Continue # L&   [2] GREEK CAPITAL LETTER PAMPHYLIAN DIGAMMA..GREEK SMALL LETTER PAMPHYLIAN DIGAMMA",
text! "037A          ; ID_Continue # Lm       GREEK YPOGEGRAMMENI",
text! "037B..037D    ; ID_Continue # L&   [3] GREEK SMALL REVERSED LUNATE SIGMA SYMBOL..GREEK SMALL REVERSED DOTTED LUNATE SIGMA SYMBOL",
text! "037F          ; ID_Continue # L&       GREEK CAPITAL LETTER YOT",
text! "0386          ; ID_Continue # L&       GREEK CAPITAL LETTER ALPHA WITH TONOS",
text! "0387          ; ID_Continue # Po       GREEK ANO TELEIA",
text! "0388..038A    ; ID_Continue # L&   [3] GREEK CAPITAL LETTER EPSILON WITH TONOS..GREEK CAPITAL LETTER IOTA WITH TONOS",
text! "038C          ; ID_Continue # L&       GREEK CAPITAL LETTER OMICRON WITH TONOS",
text! "038E..03A1    ; ID_Continue # L&  [20] GREEK CAPITAL LETTER UPSILON WITH TONOS..GREEK CAPITAL LETTER RHO",
text! "03A3..03F5    ; ID_Continue # L&  [83] GREEK CAPITAL LETTER SIGMA..GREEK LUNATE EPSILON SYMBOL",
text! "03F7..0481    ; ID_Continue # L& [139] GREEK CAPITAL LETTER SHO..CYRILLIC SMALL LETTER KOPPA",
text! "0483..0487    ; ID_Continue # Mn   [5] COMBINING CYRILLIC TITLO..COMBINING CYRILLIC POKRYTIE",
text! "048A..052F    ; ID_Continue # L& [166] CYRILLIC CAPITAL LETTER SHORT I WITH TAIL..CYRILLIC SMALL LETTER EL WITH DESCENDER",
text! "0531..0556    ; ID_Continue # L&  [38] ARMENIAN CAPITAL LETTER AYB..ARMENIAN CAPITAL LETTER FEH",
text! "0559          ; ID_Continue # Lm       ARMENIAN MODIFIER LETTER LEFT HALF RING",
text! "0560..0588    ; ID_Continue # L&  [41] ARMENIAN SMALL LETTER TURNED AYB..ARMENIAN SMALL LETTER YI WITH STROKE",
text! "0591..05BD    ; ID_Continue # Mn  [45] HEBREW ACCENT ETNAHTA..HEBREW POINT METEG",
text! "05BF          ; ID_Continue # Mn       HEBREW POINT RAFE",
text! "05C1..05C2    ; ID_Continue # Mn   [2] HEBREW POINT SHIN DOT..HEBREW POINT SIN DOT",
text! "05C4..05C5    ; ID_Continue # Mn   [2] HEBREW MARK UPPER DOT..HEBREW MARK LOWER DOT",
text! "05C7          ; ID_Continue # Mn       HEBREW POINT QAMATS QATAN",
text! "05D0..05EA    ; ID_Continue # Lo  [27] HEBREW LETTER ALEF..HEBREW LETTER TAV",
text! "05EF..05F2    ; ID_Continue # Lo   [4] HEBREW YOD TRIANGLE..HEBREW LIGATURE YIDDISH DOUBLE YOD",
text! "0610..061A    ; ID_Continue # Mn  [11] ARABIC SIGN SALLALLAHOU ALAYHE WASSALLAM..ARABIC SMALL KASRA",
text! "0620..063F    ; ID_Continue # Lo  [32] ARABIC LETTER KASHMIRI YEH..ARABIC LETTER FARSI YEH WITH THREE DOTS ABOVE"]

/-- lines 7105-7168 -/
def derivedCore111 : List Nat := [
text! "0640          ; ID_Continue # Lm       ARABIC TATWEEL",
text! "0641..064A    ; ID_Continue # Lo  [10] ARABIC LETTER FEH..ARABIC LETTER YEH",
text! "064B..065F    ; ID_Continue # Mn  [21] ARABIC FATHATAN..ARABIC WAVY HAMZA BELOW",
text! "0660..0669    ; ID_Continue # Nd  [10] ARABIC-INDIC DIGIT ZERO..ARABIC-INDIC DIGIT NINE",
text! "066E..066F    ; ID_Continue # Lo   [2] ARABIC LETTER DOTLESS BEH..ARABIC LETTER DOTLESS QAF",
text! "0670          ; ID_Continue # Mn       ARABIC LETTER SUPERSCRIPT ALEF",
text! "0671..06D3    ; ID_Continue # Lo  [99] ARABIC LETTER ALEF WASLA..ARABIC LETTER YEH BARREE WITH HAMZA ABOVE",
text! "06D5          ; ID_Continue # Lo       ARABIC LETTER AE",
text! "06D6..06DC    ; ID_Continue # Mn   [7] ARABIC SMALL HIGH LIGATURE SAD WITH LAM WITH ALEF MAKSURA..ARABIC SMALL HIGH SEEN",
text! "06DF..06E4    ; ID_Continue # Mn   [6] ARABIC SMALL HIGH ROUNDED ZERO..ARABIC SMALL HIGH MADDA",
text! "06E5..06E6    ; ID_Continue # Lm   [2] ARABIC SMALL WAW..ARABIC SMALL YEH",
text! "06E7..06E8    ; ID_Continue # Mn   [2] ARABIC SMALL HIGH YEH..ARABIC SMALL HIGH NOON",
text! "06EA..06ED    ; ID_Continue # Mn   [4] ARABIC EMPTY CENTRE LOW STOP..ARABIC SMALL LOW MEEM",
text! "06EE..06EF    ; ID_Continue # Lo   [2] ARABIC LETTER DAL WITH INVERTED V..ARABIC LETTER REH WITH INVERTED V",
text! "06F0..06F9    ; ID_Continue # Nd  [10] EXTENDED ARABIC-INDIC DIGIT ZERO..EXTENDED ARABIC-INDIC DIGIT NINE",
text! "06FA..06FC    ; ID_Continue # Lo   [3] ARABIC LETTER SHEEN WITH DOT BELOW..ARABIC LETTER GHAIN WITH DOT BELOW",
text! "06FF          ; ID_Continue # Lo       ARABIC LETTER HEH WITH INVERTED V",
text! "0710          ; ID_Continue # Lo       SYRIAC LETTER ALAPH",
text! "0711          ; ID_Continue # Mn       SYRIAC LETTER SUPERSCRIPT ALAPH",
text! "0712..072F    ; ID_Continue # Lo  [30] SYRIAC LETTER BETH..SYRIAC LETTER PERSIAN DHALATH",
text! "0730..074A    ; ID_Continue # Mn  [27] SYRIAC PTHAHA ABOVE..SYRIAC BARREKH",
text! "074D..07A5    ; ID_Continue # Lo  [89] SYRIAC LETTER SOGDIAN ZHAIN..THAANA LETTER WAAVU",
text! "07A6..07B0    ; ID_Continue # Mn  [11] THAANA ABAFILI..THAANA SUKUN",
text! "07B1          ; ID_Continue # Lo       THAANA LETTER NAA",
text! "07C0..07C9    ; ID_Continue # Nd  [10] NKO DIGIT ZERO..NKO DIGIT NINE",
text! "07CA..07EA    ; ID_Continue # Lo  [33] NKO LETTER A..NKO LETTER JONA RA",
text! "07EB..07F3    ; ID_Continue # Mn   [9] NKO COMBINING SHORT HIGH TONE..NKO COMBINING DOUBLE DOT ABOVE",
text! "07F4..07F5    ; ID_Continue # Lm   [2] NKO HIGH TONE APOSTROPHE..NKO LOW TONE APOSTROPHE",
text! "07FA          ; ID_Continue # Lm       NKO LAJANYALAN",
text! "07FD          ; ID_Continue # Mn       NKO DANTAYALAN",
text! "0800..0815    ; ID_Continue # Lo  [22] SAMARITAN LETTER ALAF..SAMARITAN LETTER TAAF",
text! "0816..0819    ; ID_Continue # Mn   [4] SAMARITAN MARK IN..SAMARITAN MARK DAGESH",
text! "081A          ; ID_Continue # Lm       SAMARITAN MODIFIER LETTER EPENTHETIC YUT",
text! "081B..0823    ; ID_Continue # Mn   [9] SAMARITAN MARK EPENTHETIC YUT..SAMARITAN VOWEL SIGN A",
text! "0824          ; ID_Continue # Lm       SAMARITAN MODIFIER LETTER SHORT A",
text! "0825..0827    ; ID_Continue # Mn   [3] SAMARITAN VOWEL SIGN SHORT A..SAMARITAN VOWEL SIGN U",
text! "0828          ; ID_Continue # Lm       SAMARITAN MODIFIER LETTER I",
text! "0829..082D    ; ID_Continue # Mn   [5] SAMARITAN VOWEL SIGN LONG I..SAMARITAN MARK NEQUDAA",
text! "0840..0858    ; ID_Continue # Lo  [25] MANDAIC LETTER HALQA..MANDAIC LETTER AIN",
text! "0859..085B    ; ID_Continue # Mn   [3] MANDAIC AFFRICATION MARK..MANDAIC GEMINATION MARK",
text! "0860..086A    ; ID_Continue # Lo  [11] SYRIAC LETTER MALAYALAM NGA..SYRIAC LETTER MALAYALAM SSA",
text! "0870..0887    ; ID_Continue # Lo  [24] ARABIC LETTER ALEF WITH ATTACHED FATHA..ARABIC BASELINE ROUND DOT",
text! "0889..088F    ; ID_Continue # Lo   [7] ARABIC LETTER NOON WITH INVERTED SMALL V..ARABIC LETTER NOON WITH RING ABOVE",
text! "0897..089F    ; ID_Continue # Mn   [9] ARABIC PEPET..ARABIC HALF MADDA OVER MADDA",
text! "08A0..08C8    ; ID_Continue # Lo  [41] ARABIC LETTER BEH WITH SMALL V BELOW..ARABIC LETTER GRAF",
text! "08C9          ; ID_Continue # Lm       ARABIC SMALL FARSI YEH",
text! "08CA..08E1    ; ID_Continue # Mn  [24] ARABIC SMALL HIGH FARSI YEH..ARABIC SMALL HIGH SIGN SAFHA",
text! "08E3..0902    ; ID_Continue # Mn  [32] ARABIC TURNED DAMMA BELOW..DEVANAGARI SIGN ANUSVARA",
text! "0903          ; ID_Continue # Mc       DEVANAGARI SIGN VISARGA",
text! "0904..0939    ; ID_Continue # Lo  [54] DEVANAGARI LETTER SHORT A..DEVANAGARI LETTER HA",
text! "093A          ; ID_Continue # Mn       DEVANAGARI VOWEL SIGN OE",
text! "093B          ; ID_Continue # Mc       DEVANAGARI VOWEL SIGN OOE",
text! "093C          ; ID_Continue # Mn       DEVANAGARI SIGN NUKTA",
text! "093D          ; ID_Continue # Lo       DEVANAGARI SIGN AVAGRAHA",
text! "093E..0940    ; ID_Continue # Mc   [3] DEVANAGARI VOWEL SIGN AA..DEVANAGARI VOWEL SIGN II",
text! "0941..0948    ; ID_Continue # Mn   [8] DEVANAGARI VOWEL SIGN U..DEVANAGARI VOWEL SIGN AI",
text! "0949..094C    ; ID_Continue # Mc   [4] DEVANAGARI VOWEL SIGN CANDRA O..DEVANAGARI VOWEL SIGN AU",
text! "094D          ; ID_Continue # Mn       DEVANAGARI SIGN VIRAMA",
text! "094E..094F    ; ID_Continue # Mc   [2] DEVANAGARI VOWEL SIGN PRISHTHAMATRA E..DEVANAGARI VOWEL SIGN AW",
text! "0950          ; ID_Continue # Lo       DEVANAGARI OM",
text! "0951..0957    ; ID_Continue # Mn   [7] DEVANAGARI STRESS SIGN UDATTA..DEVANAGARI VOWEL SIGN UUE",
text! "0958..0961    ; ID_Continue # Lo  [10] DEVANAGARI LETTER QA..DEVANAGARI LETTER VOCALIC LL",
text! "0962..0963    ; ID_Continue # Mn   [2] DEVANAGARI VOWEL SIGN VOCALIC L..DEVANAGARI VOWEL SIGN VOCALIC LL",
text! "0966..096F    ; ID_Continue # Nd  [10] DEVANAGARI DIGIT ZERO..DEVANAGARI DIGIT NINE"]

/-- lines 7169-7232 -/
def derivedCore112 : List Nat := [
text! "0971          ; ID_Continue # Lm       DEVANAGARI SIGN HIGH SPACING DOT",
text! "0972..0980    ; ID_Continue # Lo  [15] DEVANAGARI LETTER CANDRA A..BENGALI ANJI",
text! "0981          ; ID_Continue # Mn       BENGALI SIGN CANDRABINDU",
text! "0982..0983    ; ID_Continue # Mc   [2] BENGALI SIGN ANUSVARA..BENGALI SIGN VISARGA",
text! "0985..098C    ; ID_Continue # Lo   [8] BENGALI LETTER A..BENGALI LETTER VOCALIC L",
text! "098F..0990    ; ID_Continue # Lo   [2] BENGALI LETTER E..BENGALI LETTER AI",
text! "0993..09A8    ; ID_Continue # Lo  [22] BENGALI LETTER O..BENGALI LETTER NA",
text! "09AA..09B0    ; ID_Continue # Lo   [7] BENGALI LETTER PA..BENGALI LETTER RA",
text! "09B2          ; ID_Continue # Lo       BENGALI LETTER LA",
text! "09B6..09B9    ; ID_Continue # Lo   [4] BENGALI LETTER SHA..BENGALI LETTER HA",
text! "09BC          ; ID_Continue # Mn       BENGALI SIGN NUKTA",
text! "09BD          ; ID_Continue # Lo       BENGALI SIGN AVAGRAHA",
text! "09BE..09C0    ; ID_Continue # Mc   [3] BENGALI VOWEL SIGN AA..BENGALI VOWEL SIGN II",
text! "09C1..09C4    ; ID_Continue # Mn   [4] BENGALI VOWEL SIGN U..BENGALI VOWEL SIGN VOCALIC RR",
text! "09C7..09C8    ; ID_Continue # Mc   [2] BENGALI VOWEL SIGN E..BENGALI VOWEL SIGN AI",
text! "09CB..09CC    ; ID_Continue # Mc   [2] BENGALI VOWEL SIGN O..BENGALI VOWEL SIGN AU",
text! "09CD          ; ID_Continue # Mn       BENGALI SIGN VIRAMA",
text! "09CE          ; ID_Continue # Lo       BENGALI LETTER KHANDA TA",
text! "09D7          ; ID_Continue # Mc       BENGALI AU LENGTH MARK",
text! "09DC..09DD    ; ID_Continue # Lo   [2] BENGALI LETTER RRA..BENGALI LETTER RHA",
text! "09DF..09E1    ; ID_Continue # Lo   [3] BENGALI LETTER YYA..BENGALI LETTER VOCALIC LL",
text! "09E2..09E3    ; ID_Continue # Mn   [2] BENGALI VOWEL SIGN VOCALIC L..BENGALI VOWEL SIGN VOCALIC LL",
text! "09E6..09EF    ; ID_Continue # Nd  [10] BENGALI DIGIT ZERO..BENGALI DIGIT NINE",
text! "09F0..09F1    ; ID_Continue # Lo   [2] BENGALI LETTER RA WITH MIDDLE DIAGONAL..BENGALI LETTER RA WITH LOWER DIAGONAL",
text! "09FC          ; ID_Continue # Lo       BENGALI LETTER VEDIC ANUSVARA",
text! "09FE          ; ID_Continue # Mn       BENGALI SANDHI MARK",
text! "0A01..0A02    ; ID_Continue # Mn   [2] GURMUKHI SIGN ADAK BINDI..GURMUKHI SIGN BINDI",
text! "0A03          ; ID_Continue # Mc       GURMUKHI SIGN VISARGA",
text! "0A05..0A0A    ; ID_Continue # Lo   [6] GURMUKHI LETTER A..GURMUKHI LETTER UU",
text! "0A0F..0A10    ; ID_Continue # Lo   [2] GURMUKHI LETTER EE..GURMUKHI LETTER AI",
text! "0A13..0A28    ; ID_Continue # Lo  [22] GURMUKHI LETTER OO..GURMUKHI LETTER NA",
text! "0A2A..0A30    ; ID_Continue # Lo   [7] GURMUKHI LETTER PA..GURMUKHI LETTER RA",
text! "0A32..0A33    ; ID_Continue # Lo   [2] GURMUKHI LETTER LA..GURMUKHI LETTER LLA",
text! "0A35..0A36    ; ID_Continue # Lo   [2] GURMUKHI LETTER VA..GURMUKHI LETTER SHA",
text! "0A38..0A39    ; ID_Continue # Lo   [2] GURMUKHI LETTER SA..GURMUKHI LETTER HA",
text! "0A3C          ; ID_Continue # Mn       GURMUKHI SIGN NUKTA",
text! "0A3E..0A40    ; ID_Continue # Mc   [3] GURMUKHI VOWEL SIGN AA..GURMUKHI VOWEL SIGN II",
text! "0A41..0A42    ; ID_Continue # Mn   [2] GURMUKHI VOWEL SIGN U..GURMUKHI VOWEL SIGN UU",
text! "0A47..0A48    ; ID_Continue # Mn   [2] GURMUKHI VOWEL SIGN EE..GURMUKHI VOWEL SIGN AI",
text! "0A4B..0A4D    ; ID_Continue # Mn   [3] GURMUKHI VOWEL SIGN OO..GURMUKHI SIGN VIRAMA",
text! "0A51          ; ID_Continue # Mn       GURMUKHI SIGN UDAAT",
text! "0A59..0A5C    ; ID_Continue # Lo   [4] GURMUKHI LETTER KHHA..GURMUKHI LETTER RRA",
text! "0A5E          ; ID_Continue # Lo       GURMUKHI LETTER FA",
text! "0A66..0A6F    ; ID_Continue # Nd  [10] GURMUKHI DIGIT ZERO..GURMUKHI DIGIT NINE",
text! "0A70..0A71    ; ID_Continue # Mn   [2] GURMUKHI TIPPI..GURMUKHI ADDAK",
text! "0A72..0A74    ; ID_Continue # Lo   [3] GURMUKHI IRI..GURMUKHI EK ONKAR",
text! "0A75          ; ID_Continue # Mn       GURMUKHI SIGN YAKASH",
text! "0A81..0A82    ; ID_Continue # Mn   [2] GUJARATI SIGN CANDRABINDU..GUJARATI SIGN ANUSVARA",
text! "0A83          ; ID_Continue # Mc       GUJARATI SIGN VISARGA",
text! "0A85..0A8D    ; ID_Continue # Lo   [9] GUJARATI LETTER A..GUJARATI VOWEL CANDRA E",
text! "0A8F..0A91    ; ID_Continue # Lo   [3] GUJARATI LETTER E..GUJARATI VOWEL CANDRA O",
text! "0A93..0AA8    ; ID_Continue # Lo  [22] GUJARATI LETTER O..GUJARATI LETTER NA",
text! "0AAA..0AB0    ; ID_Continue # Lo   [7] GUJARATI LETTER PA..GUJARATI LETTER RA",
text! "0AB2..0AB3    ; ID_Continue # Lo   [2] GUJARATI LETTER LA..GUJARATI LETTER LLA",
text! "0AB5..0AB9    ; ID_Continue # Lo   [5] GUJARATI LETTER VA..GUJARATI LETTER HA",
text! "0ABC          ; ID_Continue # Mn       GUJARATI SIGN NUKTA",
text! "0ABD          ; ID_Continue # Lo       GUJARATI SIGN AVAGRAHA",
text! "0ABE..0AC0    ; ID_Continue # Mc   [3] GUJARATI VOWEL SIGN AA..GUJARATI VOWEL SIGN II",
text! "0AC1..0AC5    ; ID_Continue # Mn   [5] GUJARATI VOWEL SIGN U..GUJARATI VOWEL SIGN CANDRA E",
text! "0AC7..0AC8    ; ID_Continue # Mn   [2] GUJARATI VOWEL SIGN E..GUJARATI VOWEL SIGN AI",
text! "0AC9          ; ID_Continue # Mc       GUJARATI VOWEL SIGN CANDRA O",
text! "0ACB..0ACC    ; ID_Continue # Mc   [2] GUJARATI VOWEL SIGN O..GUJARATI VOWEL SIGN AU",
text! "0ACD          ; ID_Continue # Mn       GUJARATI SIGN VIRAMA",
text! "0AD0          ; ID_Continue # Lo       GUJARATI OM"]

/-- lines 7233-7296 -/
def derivedCore113 : List Nat := [
text! "0AE0..0AE1    ; ID_Continue # Lo   [2] GUJARATI LETTER VOCALIC RR..GUJARATI LETTER VOCALIC LL",
text! "0AE2..0AE3    ; ID_Continue # Mn   [2] GUJARATI VOWEL SIGN VOCALIC L..GUJARATI VOWEL SIGN VOCALIC LL",
text! "0AE6..0AEF    ; ID_Continue # Nd  [10] GUJARATI DIGIT ZERO..GUJARATI DIGIT NINE",
text! "0AF9          ; ID_Continue # Lo       GUJARATI LETTER ZHA",
text! "0AFA..0AFF    ; ID_Continue # Mn   [6] GUJARATI SIGN SUKUN..GUJARATI SIGN TWO-CIRCLE NUKTA ABOVE",
text! "0B01          ; ID_Continue # Mn       ORIYA SIGN CANDRABINDU",
text! "0B02..0B03    ; ID_Continue # Mc   [2] ORIYA SIGN ANUSVARA..ORIYA SIGN VISARGA",
text! "0B05..0B0C    ; ID_Continue # Lo   [8] ORIYA LETTER A..ORIYA LETTER VOCALIC L",
text! "0B0F..0B10    ; ID_Continue # Lo   [2] ORIYA LETTER E..ORIYA LETTER AI",
text! "0B13..0B28    ; ID_Continue # Lo  [22] ORIYA LETTER O..ORIYA LETTER NA",
text! "0B2A..0B30    ; ID_Continue # Lo   [7] ORIYA LETTER PA..ORIYA LETTER RA",
text! "0B32..0B33    ; ID_Continue # Lo   [2] ORIYA LETTER LA..ORIYA LETTER LLA",
text! "0B35..0B39    ; ID_Continue # Lo   [5] ORIYA LETTER VA..ORIYA LETTER HA",
text! "0B3C          ; ID_Continue # Mn       ORIYA SIGN NUKTA",
text! "0B3D          ; ID_Continue # Lo       ORIYA SIGN AVAGRAHA",
text! "0B3E          ; ID_Continue # Mc       ORIYA VOWEL SIGN AA",
text! "0B3F          ; ID_Continue # Mn       ORIYA VOWEL SIGN I",
text! "0B40          ; ID_Continue # Mc       ORIYA VOWEL SIGN II",
text! "0B41..0B44    ; ID_Continue # Mn   [4] ORIYA VOWEL SIGN U..ORIYA VOWEL SIGN VOCALIC RR",
text! "0B47..0B48    ; ID_Continue # Mc   [2] ORIYA VOWEL SIGN E..ORIYA VOWEL SIGN AI",
text! "0B4B..0B4C    ; ID_Continue # Mc   [2] ORIYA VOWEL SIGN O..ORIYA VOWEL SIGN AU",
text! "0B4D          ; ID_Continue # Mn       ORIYA SIGN VIRAMA",
text! "0B55..0B56    ; ID_Continue # Mn   [2] ORIYA SIGN OVERLINE..ORIYA AI LENGTH MARK",
text! "0B57          ; ID_Continue # Mc       ORIYA AU LENGTH MARK",
text! "0B5C..0B5D    ; ID_Continue # Lo   [2] ORIYA LETTER RRA..ORIYA LETTER RHA",
text! "0B5F..0B61    ; ID_Continue # Lo   [3] ORIYA LETTER YYA..ORIYA LETTER VOCALIC LL",
text! "0B62..0B63    ; ID_Continue # Mn   [2] ORIYA VOWEL SIGN VOCALIC L..ORIYA VOWEL SIGN VOCALIC LL",
text! "0B66..0B6F    ; ID_Continue # Nd  [10] ORIYA DIGIT ZERO..ORIYA DIGIT NINE",
text! "0B71          ; ID_Continue # Lo       ORIYA LETTER WA",
text! "0B82          ; ID_Continue # Mn       TAMIL SIGN ANUSVARA",
text! "0B83          ; ID_Continue # Lo       TAMIL SIGN VISARGA",
text! "0B85..0B8A    ; ID_Continue # Lo   [6] TAMIL LETTER A..TAMIL LETTER UU",
text! "0B8E..0B90    ; ID_Continue # Lo   [3] TAMIL LETTER E..TAMIL LETTER AI",
text! "0B92..0B95    ; ID_Continue # Lo   [4] TAMIL LETTER O..TAMIL LETTER KA",
text! "0B99..0B9A    ; ID_Continue # Lo   [2] TAMIL LETTER NGA..TAMIL LETTER CA",
text! "0B9C          ; ID_Continue # Lo       TAMIL LETTER JA",
text! "0B9E..0B9F    ; ID_Continue # Lo   [2] TAMIL LETTER NYA..TAMIL LETTER TTA",
text! "0BA3..0BA4    ; ID_Continue # Lo   [2] TAMIL LETTER NNA..TAMIL LETTER TA",
text! "0BA8..0BAA    ; ID_Continue # Lo   [3] TAMIL LETTER NA..TAMIL LETTER PA",
text! "0BAE..0BB9    ; ID_Continue # Lo  [12] TAMIL LETTER MA..TAMIL LETTER HA",
text! "0BBE..0BBF    ; ID_Continue # Mc   [2] TAMIL VOWEL SIGN AA..TAMIL VOWEL SIGN I",
text! "0BC0          ; ID_Continue # Mn       TAMIL VOWEL SIGN II",
text! "0BC1..0BC2    ; ID_Continue # Mc   [2] TAMIL VOWEL SIGN U..TAMIL VOWEL SIGN UU",
text! "0BC6..0BC8    ; ID_Continue # Mc   [3] TAMIL VOWEL SIGN E..TAMIL VOWEL SIGN AI",
text! "0BCA..0BCC    ; ID_Continue # Mc   [3] TAMIL VOWEL SIGN O..TAMIL VOWEL SIGN AU",
text! "0BCD          ; ID_Continue # Mn       TAMIL SIGN VIRAMA",
text! "0BD0          ; ID_Continue # Lo       TAMIL OM",
text! "0BD7          ; ID_Continue # Mc       TAMIL AU LENGTH MARK",
text! "0BE6..0BEF    ; ID_Continue # Nd  [10] TAMIL DIGIT ZERO..TAMIL DIGIT NINE",
text! "0C00          ; ID_Continue # Mn       TELUGU SIGN COMBINING CANDRABINDU ABOVE",
text! "0C01..0C03    ; ID_Continue # Mc   [3] TELUGU SIGN CANDRABINDU..TELUGU SIGN VISARGA",
text! "0C04          ; ID_Continue # Mn       TELUGU SIGN COMBINING ANUSVARA ABOVE",
text! "0C05..0C0C    ; ID_Continue # Lo   [8] TELUGU LETTER A..TELUGU LETTER VOCALIC L",
text! "0C0E..0C10    ; ID_Continue # Lo   [3] TELUGU LETTER E..TELUGU LETTER AI",
text! "0C12..0C28    ; ID_Continue # Lo  [23] TELUGU LETTER O..TELUGU LETTER NA",
text! "0C2A..0C39    ; ID_Continue # Lo  [16] TELUGU LETTER PA..TELUGU LETTER HA",
text! "0C3C          ; ID_Continue # Mn       TELUGU SIGN NUKTA",
text! "0C3D          ; ID_Continue # Lo       TELUGU SIGN AVAGRAHA",
text! "0C3E..0C40    ; ID_Continue # Mn   [3] TELUGU VOWEL SIGN AA..TELUGU VOWEL SIGN II",
text! "0C41..0C44    ; ID_Continue # Mc   [4] TELUGU VOWEL SIGN U..TELUGU VOWEL SIGN VOCALIC RR",
text! "0C46..0C48    ; ID_Continue # Mn   [3] TELUGU VOWEL SIGN E..TELUGU VOWEL SIGN AI",
text! "0C4A..0C4D    ; ID_Continue # Mn   [4] TELUGU VOWEL SIGN O..TELUGU SIGN VIRAMA",
text! "0C55..0C56    ; ID_Continue # Mn   [2] TELUGU LENGTH MARK..TELUGU AI LENGTH MARK",
text! "0C58..0C5A    ; ID_Continue # Lo   [3] TELUGU LETTER TSA..TELUGU LETTER RRRA"]

/-- lines 7297-7360 -/
def derivedCore114 : List Nat := [
text! "0C5C..0C5D    ; ID_Continue # Lo   [2] TELUGU ARCHAIC SHRII..TELUGU LETTER NAKAARA POLLU",
text! "0C60..0C61    ; ID_Continue # Lo   [2] TELUGU LETTER VOCALIC RR..TELUGU LETTER VOCALIC LL",
text! "0C62..0C63    ; ID_Continue # Mn   [2] TELUGU VOWEL SIGN VOCALIC L..TELUGU VOWEL SIGN VOCALIC LL",
text! "0C66..0C6F    ; ID_Continue # Nd  [10] TELUGU DIGIT ZERO..TELUGU DIGIT NINE",
text! "0C80          ; ID_Continue # Lo       KANNADA SIGN SPACING CANDRABINDU",
text! "0C81          ; ID_Continue # Mn       KANNADA SIGN CANDRABINDU",
text! "0C82..0C83    ; ID_Continue # Mc   [2] KANNADA SIGN ANUSVARA..KANNADA SIGN VISARGA",
text! "0C85..0C8C    ; ID_Continue # Lo   [8] KANNADA LETTER A..KANNADA LETTER VOCALIC L",
text! "0C8E..0C90    ; ID_Continue # Lo   [3] KANNADA LETTER E..KANNADA LETTER AI",
text! "0C92..0CA8    ; ID_Continue # Lo  [23] KANNADA LETTER O..KANNADA LETTER NA",
text! "0CAA..0CB3    ; ID_Continue # Lo  [10] KANNADA LETTER PA..KANNADA LETTER LLA",
text! "0CB5..0CB9    ; ID_Continue # Lo   [5] KANNADA LETTER VA..KANNADA LETTER HA",
text! "0CBC          ; ID_Continue # Mn       KANNADA SIGN NUKTA",
text! "0CBD          ; ID_Continue # Lo       KANNADA SIGN AVAGRAHA",
text! "0CBE          ; ID_Continue # Mc       KANNADA VOWEL SIGN AA",
text! "0CBF          ; ID_Continue # Mn       KANNADA VOWEL SIGN I",
text! "0CC0..0CC4    ; ID_Continue # Mc   [5] KANNADA VOWEL SIGN II..KANNADA VOWEL SIGN VOCALIC RR",
text! "0CC6          ; ID_Continue # Mn       KANNADA VOWEL SIGN E",
text! "0CC7..0CC8    ; ID_Continue # Mc   [2] KANNADA VOWEL SIGN EE..KANNADA VOWEL SIGN AI",
text! "0CCA..0CCB    ; ID_Continue # Mc   [2] KANNADA VOWEL SIGN O..KANNADA VOWEL SIGN OO",
text! "0CCC..0CCD    ; ID_Continue # Mn   [2] KANNADA VOWEL SIGN AU..KANNADA SIGN VIRAMA",
text! "0CD5..0CD6    ; ID_Continue # Mc   [2] KANNADA LENGTH MARK..KANNADA AI LENGTH MARK",
text! "0CDC..0CDE    ; ID_Continue # Lo   [3] KANNADA ARCHAIC SHRII..KANNADA LETTER FA",
text! "0CE0..0CE1    ; ID_Continue # Lo   [2] KANNADA LETTER VOCALIC RR..KANNADA LETTER VOCALIC LL",
text! "0CE2..0CE3    ; ID_Continue # Mn   [2] KANNADA VOWEL SIGN VOCALIC L..KANNADA VOWEL SIGN VOCALIC LL",
text! "0CE6..0CEF    ; ID_Continue # Nd  [10] KANNADA DIGIT ZERO..KANNADA DIGIT NINE",
text! "0CF1..0CF2    ; ID_Continue # Lo   [2] KANNADA SIGN JIHVAMULIYA..KANNADA SIGN UPADHMANIYA",
text! "0CF3          ; ID_Continue # Mc       KANNADA SIGN COMBINING ANUSVARA ABOVE RIGHT",
text! "0D00..0D01    ; ID_Continue # Mn   [2] MALAYALAM SIGN COMBINING ANUSVARA ABOVE..MALAYALAM SIGN CANDRABINDU",
text! "0D02..0D03    ; ID_Continue # Mc   [2] MALAYALAM SIGN ANUSVARA..MALAYALAM SIGN VISARGA",
text! "0D04..0D0C    ; ID_Continue # Lo   [9] MALAYALAM LETTER VEDIC ANUSVARA..MALAYALAM LETTER VOCALIC L",
text! "0D0E..0D10    ; ID_Continue # Lo   [3] MALAYALAM LETTER E..MALAYALAM LETTER AI",
text! "0D12..0D3A    ; ID_Continue # Lo  [41] MALAYALAM LETTER O..MALAYALAM LETTER TTTA",
text! "0D3B..0D3C    ; ID_Continue # Mn   [2] MALAYALAM SIGN VERTICAL BAR VIRAMA..MALAYALAM SIGN CIRCULAR VIRAMA",
text! "0D3D          ; ID_Continue # Lo       MALAYALAM SIGN AVAGRAHA",
text! "0D3E..0D40    ; ID_Continue # Mc   [3] MALAYALAM VOWEL SIGN AA..MALAYALAM VOWEL SIGN II",
text! "0D41..0D44    ; ID_Continue # Mn   [4] MALAYALAM VOWEL SIGN U..MALAYALAM VOWEL SIGN VOCALIC RR",
text! "0D46..0D48    ; ID_Continue # Mc   [3] MALAYALAM VOWEL SIGN E..MALAYALAM VOWEL SIGN AI",
text! "0D4A..0D4C    ; ID_Continue # Mc   [3] MALAYALAM VOWEL SIGN O..MALAYALAM VOWEL SIGN AU",
text! "0D4D          ; ID_Continue # Mn       MALAYALAM SIGN VIRAMA",
text! "0D4E          ; ID_Continue # Lo       MALAYALAM LETTER DOT REPH",
text! "0D54..0D56    ; ID_Continue # Lo   [3] MALAYALAM LETTER CHILLU M..MALAYALAM LETTER CHILLU LLL",
text! "0D57          ; ID_Continue # Mc       MALAYALAM AU LENGTH MARK",
text! "0D5F..0D61    ; ID_Continue # Lo   [3] MALAYALAM LETTER ARCHAIC II..MALAYALAM LETTER VOCALIC LL",
text! "0D62..0D63    ; ID_Continue # Mn   [2] MALAYALAM VOWEL SIGN VOCALIC L..MALAYALAM VOWEL SIGN VOCALIC LL",
text! "0D66..0D6F    ; ID_Continue # Nd  [10] MALAYALAM DIGIT ZERO..MALAYALAM DIGIT NINE",
text! "0D7A..0D7F    ; ID_Continue # Lo   [6] MALAYALAM LETTER CHILLU NN..MALAYALAM LETTER CHILLU K",
text! "0D81          ; ID_Continue # Mn       SINHALA SIGN CANDRABINDU",
text! "0D82..0D83    ; ID_Continue # Mc   [2] SINHALA SIGN ANUSVARAYA..SINHALA SIGN VISARGAYA",
text! "0D85..0D96    ; ID_Continue # Lo  [18] SINHALA LETTER AYANNA..SINHALA LETTER AUYANNA",
text! "0D9A..0DB1    ; ID_Continue # Lo  [24] SINHALA LETTER ALPAPRAANA KAYANNA..SINHALA LETTER DANTAJA NAYANNA",
text! "0DB3..0DBB    ; ID_Continue # Lo   [9] SINHALA LETTER SANYAKA DAYANNA..SINHALA LETTER RAYANNA",
text! "0DBD          ; ID_Continue # Lo       SINHALA LETTER DANTAJA LAYANNA",
text! "0DC0..0DC6    ; ID_Continue # Lo   [7] SINHALA LETTER VAYANNA..SINHALA LETTER FAYANNA",
text! "0DCA          ; ID_Continue # Mn       SINHALA SIGN AL-LAKUNA",
text! "0DCF..0DD1    ; ID_Continue # Mc   [3] SINHALA VOWEL SIGN AELA-PILLA..SINHALA VOWEL SIGN DIGA AEDA-PILLA",
text! "0DD2..0DD4    ; ID_Continue # Mn   [3] SINHALA VOWEL SIGN KETTI IS-PILLA..SINHALA VOWEL SIGN KETTI PAA-PILLA",
text! "0DD6          ; ID_Continue # Mn       SINHALA VOWEL SIGN DIGA PAA-PILLA",
text! "0DD8..0DDF    ; ID_Continue # Mc   [8] SINHALA VOWEL SIGN GAETTA-PILLA..SINHALA VOWEL SIGN GAYANUKITTA",
text! "0DE6..0DEF    ; ID_Continue # Nd  [10] SINHALA LITH DIGIT ZERO..SINHALA LITH DIGIT NINE",
text! "0DF2..0DF3    ; ID_Continue # Mc   [2] SINHALA VOWEL SIGN DIGA GAETTA-PILLA..SINHALA VOWEL SIGN DIGA GAYANUKITTA",
text! "0E01..0E30    ; ID_Continue # Lo  [48] THAI CHARACTER KO KAI..THAI CHARACTER SARA A",
text! "0E31          ; ID_Continue # Mn       THAI CHARACTER MAI HAN-AKAT",
text! "0E32..0E33    ; ID_Continue # Lo   [2] THAI CHARACTER SARA AA..THAI CHARACTER SARA AM"]

/-- lines 7361-7424 -/
def derivedCore115 : List Nat := [
text! "0E34..0E3A    ; ID_Continue # Mn   [7] THAI CHARACTER SARA I..THAI CHARACTER PHINTHU",
text! "0E40..0E45    ; ID_Continue # Lo   [6] THAI CHARACTER SARA E..THAI CHARACTER LAKKHANGYAO",
text! "0E46          ; ID_Continue # Lm       THAI CHARACTER MAIYAMOK",
text! "0E47..0E4E    ; ID_Continue # Mn   [8] THAI CHARACTER MAITAIKHU..THAI CHARACTER YAMAKKAN",
text! "0E50..0E59    ; ID_Continue # Nd  [10] THAI DIGIT ZERO..THAI DIGIT NINE",
text! "0E81..0E82    ; ID_Continue # Lo   [2] LAO LETTER KO..LAO LETTER KHO SUNG",
text! "0E84          ; ID_Continue # Lo       LAO LETTER KHO TAM",
text! "0E86..0E8A    ; ID_Continue # Lo   [5] LAO LETTER PALI GHA..LAO LETTER SO TAM",
text! "0E8C..0EA3    ; ID_Continue # Lo  [24] LAO LETTER PALI JHA..LAO LETTER LO LING",
text! "0EA5          ; ID_Continue # Lo       LAO LETTER LO LOOT",
text! "0EA7..0EB0    ; ID_Continue # Lo  [10] LAO LETTER WO..LAO VOWEL SIGN A",
text! "0EB1          ; ID_Continue # Mn       LAO VOWEL SIGN MAI KAN",
text! "0EB2..0EB3    ; ID_Continue # Lo   [2] LAO VOWEL SIGN AA..LAO VOWEL SIGN AM",
text! "0EB4..0EBC    ; ID_Continue # Mn   [9] LAO VOWEL SIGN I..LAO SEMIVOWEL SIGN LO",
text! "0EBD          ; ID_Continue # Lo       LAO SEMIVOWEL SIGN NYO",
text! "0EC0..0EC4    ; ID_Continue # Lo   [5] LAO VOWEL SIGN E..LAO VOWEL SIGN AI",
text! "0EC6          ; ID_Continue # Lm       LAO KO LA",
text! "0EC8..0ECE    ; ID_Continue # Mn   [7] LAO TONE MAI EK..LAO YAMAKKAN",
text! "0ED0..0ED9    ; ID_Continue # Nd  [10] LAO DIGIT ZERO..LAO DIGIT NINE",
text! "0EDC..0EDF    ; ID_Continue # Lo   [4] LAO HO NO..LAO LETTER KHMU NYO",
text! "0F00          ; ID_Continue # Lo       TIBETAN SYLLABLE OM",
text! "0F18..0F19    ; ID_Continue # Mn   [2] TIBETAN ASTROLOGICAL SIGN -KHYUD PA..TIBETAN ASTROLOGICAL SIGN SDONG TSHUGS",
text! "0F20..0F29    ; ID_Continue # Nd  [10] TIBETAN DIGIT ZERO..TIBETAN DIGIT NINE",
text! "0F35          ; ID_Continue # Mn       TIBETAN MARK NGAS BZUNG NYI ZLA",
text! "0F37          ; ID_Continue # Mn       TIBETAN MARK NGAS BZUNG SGOR RTAGS",
text! "0F39          ; ID_Continue # Mn       TIBETAN MARK TSA -PHRU",
text! "0F3E..0F3F    ; ID_Continue # Mc   [2] TIBETAN SIGN YAR TSHES..TIBETAN SIGN MAR TSHES",
text! "0F40..0F47    ; ID_Continue # Lo   [8] TIBETAN LETTER KA..TIBETAN LETTER JA",
text! "0F49..0F6C    ; ID_Continue # Lo  [36] TIBETAN LETTER NYA..TIBETAN LETTER RRA",
text! "0F71..0F7E    ; ID_Continue # Mn  [14] TIBETAN VOWEL SIGN AA..TIBETAN SIGN RJES SU NGA RO",
text! "0F7F          ; ID_Continue # Mc       TIBETAN SIGN RNAM BCAD",
text! "0F80..0F84    ; ID_Continue # Mn   [5] TIBETAN VOWEL SIGN REVERSED I..TIBETAN MARK HALANTA",
text! "0F86..0F87    ; ID_Continue # Mn   [2] TIBETAN SIGN LCI RTAGS..TIBETAN SIGN YANG RTAGS",
text! "0F88..0F8C    ; ID_Continue # Lo   [5] TIBETAN SIGN LCE TSA CAN..TIBETAN SIGN INVERTED MCHU CAN",
text! "0F8D..0F97    ; ID_Continue # Mn  [11] TIBETAN SUBJOINED SIGN LCE TSA CAN..TIBETAN SUBJOINED LETTER JA",
text! "0F99..0FBC    ; ID_Continue # Mn  [36] TIBETAN SUBJOINED LETTER NYA..TIBETAN SUBJOINED LETTER FIXED-FORM RA",
text! "0FC6          ; ID_Continue # Mn       TIBETAN SYMBOL PADMA GDAN",
text! "1000..102A    ; ID_Continue # Lo  [43] MYANMAR LETTER KA..MYANMAR LETTER AU",
text! "102B..102C    ; ID_Continue # Mc   [2] MYANMAR VOWEL SIGN TALL AA..MYANMAR VOWEL SIGN AA",
text! "102D..1030    ; ID_Continue # Mn   [4] MYANMAR VOWEL SIGN I..MYANMAR VOWEL SIGN UU",
text! "1031          ; ID_Continue # Mc       MYANMAR VOWEL SIGN E",
text! "1032..1037    ; ID_Continue # Mn   [6] MYANMAR VOWEL SIGN AI..MYANMAR SIGN DOT BELOW",
text! "1038          ; ID_Continue # Mc       MYANMAR SIGN VISARGA",
text! "1039..103A    ; ID_Continue # Mn   [2] MYANMAR SIGN VIRAMA..MYANMAR SIGN ASAT",
text! "103B..103C    ; ID_Continue # Mc   [2] MYANMAR CONSONANT SIGN MEDIAL YA..MYANMAR CONSONANT SIGN MEDIAL RA",
text! "103D..103E    ; ID_Continue # Mn   [2] MYANMAR CONSONANT SIGN MEDIAL WA..MYANMAR CONSONANT SIGN MEDIAL HA",
text! "103F          ; ID_Continue # Lo       MYANMAR LETTER GREAT SA",
text! "1040..1049    ; ID_Continue # Nd  [10] MYANMAR DIGIT ZERO..MYANMAR DIGIT NINE",
text! "1050..1055    ; ID_Continue # Lo   [6] MYANMAR LETTER SHA..MYANMAR LETTER VOCALIC LL",
text! "1056..1057    ; ID_Continue # Mc   [2] MYANMAR VOWEL SIGN VOCALIC R..MYANMAR VOWEL SIGN VOCALIC RR",
text! "1058..1059    ; ID_Continue # Mn   [2] MYANMAR VOWEL SIGN VOCALIC L..MYANMAR VOWEL SIGN VOCALIC LL",
text! "105A..105D    ; ID_Continue # Lo   [4] MYANMAR LETTER MON NGA..MYANMAR LETTER MON BBE",
text! "105E..1060    ; ID_Continue # Mn   [3] MYANMAR CONSONANT SIGN MON MEDIAL NA..MYANMAR CONSONANT SIGN MON MEDIAL LA",
text! "1061          ; ID_Continue # Lo       MYANMAR LETTER SGAW KAREN SHA",
text! "1062..1064    ; ID_Continue # Mc   [3] MYANMAR VOWEL SIGN SGAW KAREN EU..MYANMAR TONE MARK SGAW KAREN KE PHO",
text! "1065..1066    ; ID_Continue # Lo   [2] MYANMAR LETTER WESTERN PWO KAREN THA..MYANMAR LETTER WESTERN PWO KAREN PWA",
text! "1067..106D    ; ID_Continue # Mc   [7] MYANMAR VOWEL SIGN WESTERN PWO KAREN EU..MYANMAR SIGN WESTERN PWO KAREN TONE-5",
text! "106E..1070    ; ID_Continue # Lo   [3] MYANMAR LETTER EASTERN PWO KAREN NNA..MYANMAR LETTER EASTERN PWO KAREN GHWA",
text! "1071..1074    ; ID_Continue # Mn   [4] MYANMAR VOWEL SIGN GEBA KAREN I..MYANMAR VOWEL SIGN KAYAH EE",
text! "1075..1081    ; ID_Continue # Lo  [13] MYANMAR LETTER SHAN KA..MYANMAR LETTER SHAN HA",
text! "1082          ; ID_Continue # Mn       MYANMAR CONSONANT SIGN SHAN MEDIAL WA",
text! "1083..1084    ; ID_Continue # Mc   [2] MYANMAR VOWEL SIGN SHAN AA..MYANMAR VOWEL SIGN SHAN E",
text! "1085..1086    ; ID_Continue # Mn   [2] MYANMAR VOWEL SIGN SHAN E ABOVE..MYANMAR VOWEL SIGN SHAN FINAL Y",
text! "1087..108C    ; ID_Continue # Mc   [6] MYANMAR SIGN SHAN TONE-2..MYANMAR SIGN SHAN COUNCIL TONE-3"]

/-- lines 7425-7488 -/
def derivedCore116 : List Nat := [
text! "108D          ; ID_Continue # Mn       MYANMAR SIGN SHAN COUNCIL EMPHATIC TONE",
text! "108E          ; ID_Continue # Lo       MYANMAR LETTER RUMAI PALAUNG FA",
text! "108F          ; ID_Continue # Mc       MYANMAR SIGN RUMAI PALAUNG TONE-5",
text! "1090..1099    ; ID_Continue # Nd  [10] MYANMAR SHAN DIGIT ZERO..MYANMAR SHAN DIGIT NINE",
text! "109A..109C    ; ID_Continue # Mc   [3] MYANMAR SIGN KHAMTI TONE-1..MYANMAR VOWEL SIGN AITON A",
text! "109D          ; ID_Continue # Mn       MYANMAR VOWEL SIGN AITON AI",
text! "10A0..10C5    ; ID_Continue # L&  [38] GEORGIAN CAPITAL LETTER AN..GEORGIAN CAPITAL LETTER HOE",
text! "10C7          ; ID_Continue # L&       GEORGIAN CAPITAL LETTER YN",
text! "10CD          ; ID_Continue # L&       GEORGIAN CAPITAL LETTER AEN",
text! "10D0..10FA    ; ID_Continue # L&  [43] GEORGIAN LETTER AN..GEORGIAN LETTER AIN",
text! "10FC          ; ID_Continue # Lm       MODIFIER LETTER GEORGIAN NAR",
text! "10FD..10FF    ; ID_Continue # L&   [3] GEORGIAN LETTER AEN..GEORGIAN LETTER LABIAL SIGN",
text! "1100..1248    ; ID_Continue # Lo [329] HANGUL CHOSEONG KIYEOK..ETHIOPIC SYLLABLE QWA",
text! "124A..124D    ; ID_Continue # Lo   [4] ETHIOPIC SYLLABLE QWI..ETHIOPIC SYLLABLE QWE",
text! "1250..1256    ; ID_Continue # Lo   [7] ETHIOPIC SYLLABLE QHA..ETHIOPIC SYLLABLE QHO",
text! "1258          ; ID_Continue # Lo       ETHIOPIC SYLLABLE QHWA",
text! "125A..125D    ; ID_Continue # Lo   [4] ETHIOPIC SYLLABLE QHWI..ETHIOPIC SYLLABLE QHWE",
text! "1260..1288    ; ID_Continue # Lo  [41] ETHIOPIC SYLLABLE BA..ETHIOPIC SYLLABLE XWA",
text! "128A..128D    ; ID_Continue # Lo   [4] ETHIOPIC SYLLABLE XWI..ETHIOPIC SYLLABLE XWE",
text! "1290..12B0    ; ID_Continue # Lo  [33] ETHIOPIC SYLLABLE NA..ETHIOPIC SYLLABLE KWA",
text! "12B2..12B5    ; ID_Continue # Lo   [4] ETHIOPIC SYLLABLE KWI..ETHIOPIC SYLLABLE KWE",
text! "12B8..12BE    ; ID_Continue # Lo   [7] ETHIOPIC SYLLABLE KXA..ETHIOPIC SYLLABLE KXO",
text! "12C0          ; ID_Continue # Lo       ETHIOPIC SYLLABLE KXWA",
text! "12C2..12C5    ; ID_Continue # Lo   [4] ETHIOPIC SYLLABLE KXWI..ETHIOPIC SYLLABLE KXWE",
text! "12C8..12D6    ; ID_Continue # Lo  [15] ETHIOPIC SYLLABLE WA..ETHIOPIC SYLLABLE PHARYNGEAL O",
text! "12D8..1310    ; ID_Continue # Lo  [57] ETHIOPIC SYLLABLE ZA..ETHIOPIC SYLLABLE GWA",
text! "1312..1315    ; ID_Continue # Lo   [4] ETHIOPIC SYLLABLE GWI..ETHIOPIC SYLLABLE GWE",
text! "1318..135A    ; ID_Continue # Lo  [67] ETHIOPIC SYLLABLE GGA..ETHIOPIC SYLLABLE FYA",
text! "135D..135F    ; ID_Continue # Mn   [3] ETHIOPIC COMBINING GEMINATION AND VOWEL LENGTH MARK..ETHIOPIC COMBINING GEMINATION MARK",
text! "1369..1371    ; ID_Continue # No   [9] ETHIOPIC DIGIT ONE..ETHIOPIC DIGIT NINE",
text! "1380..138F    ; ID_Continue # Lo  [16] ETHIOPIC SYLLABLE SEBATBEIT MWA..ETHIOPIC SYLLABLE PWE",
text! "13A0..13F5    ; ID_Continue # L&  [86] CHEROKEE LETTER A..CHEROKEE LETTER MV",
text! "13F8..13FD    ; ID_Continue # L&   [6] CHEROKEE SMALL LETTER YE..CHEROKEE SMALL LETTER MV",
text! "1401..166C    ; ID_Continue # Lo [620] CANADIAN SYLLABICS E..CANADIAN SYLLABICS CARRIER TTSA",
text! "166F..167F    ; ID_Continue # Lo  [17] CANADIAN SYLLABICS QAI..CANADIAN SYLLABICS BLACKFOOT W",
text! "1681..169A    ; ID_Continue # Lo  [26] OGHAM LETTER BEITH..OGHAM LETTER PEITH",
text! "16A0..16EA    ; ID_Continue # Lo  [75] RUNIC LETTER FEHU FEOH FE F..RUNIC LETTER X",
text! "16EE..16F0    ; ID_Continue # Nl   [3] RUNIC ARLAUG SYMBOL..RUNIC BELGTHOR SYMBOL",
text! "16F1..16F8    ; ID_Continue # Lo   [8] RUNIC LETTER K..RUNIC LETTER FRANKS CASKET AESC",
text! "1700..1711    ; ID_Continue # Lo  [18] TAGALOG LETTER A..TAGALOG LETTER HA",
text! "1712..1714    ; ID_Continue # Mn   [3] TAGALOG VOWEL SIGN I..TAGALOG SIGN VIRAMA",
text! "1715          ; ID_Continue # Mc       TAGALOG SIGN PAMUDPOD",
text! "171F..1731    ; ID_Continue # Lo  [19] TAGALOG LETTER ARCHAIC RA..HANUNOO LETTER HA",
text! "1732..1733    ; ID_Continue # Mn   [2] HANUNOO VOWEL SIGN I..HANUNOO VOWEL SIGN U",
text! "1734          ; ID_Continue # Mc       HANUNOO SIGN PAMUDPOD",
text! "1740..1751    ; ID_Continue # Lo  [18] BUHID LETTER A..BUHID LETTER HA",
text! "1752..1753    ; ID_Continue # Mn   [2] BUHID VOWEL SIGN I..BUHID VOWEL SIGN U",
text! "1760..176C    ; ID_Continue # Lo  [13] TAGBANWA LETTER A..TAGBANWA LETTER YA",
text! "176E..1770    ; ID_Continue # Lo   [3] TAGBANWA LETTER LA..TAGBANWA LETTER SA",
text! "1772..1773    ; ID_Continue # Mn   [2] TAGBANWA VOWEL SIGN I..TAGBANWA VOWEL SIGN U",
text! "1780..17B3    ; ID_Continue # Lo  [52] KHMER LETTER KA..KHMER INDEPENDENT VOWEL QAU",
text! "17B4..17B5    ; ID_Continue # Mn   [2] KHMER VOWEL INHERENT AQ..KHMER VOWEL INHERENT AA",
text! "17B6          ; ID_Continue # Mc       KHMER VOWEL SIGN AA",
text! "17B7..17BD    ; ID_Continue # Mn   [7] KHMER VOWEL SIGN I..KHMER VOWEL SIGN UA",
text! "17BE..17C5    ; ID_Continue # Mc   [8] KHMER VOWEL SIGN OE..KHMER VOWEL SIGN AU",
text! "17C6          ; ID_Continue # Mn       KHMER SIGN NIKAHIT",
text! "17C7..17C8    ; ID_Continue # Mc   [2] KHMER SIGN REAHMUK..KHMER SIGN YUUKALEAPINTU",
text! "17C9..17D3    ; ID_Continue # Mn  [11] KHMER SIGN MUUSIKATOAN..KHMER SIGN BATHAMASAT",
text! "17D7          ; ID_Continue # Lm       KHMER SIGN LEK TOO",
text! "17DC          ; ID_Continue # Lo       KHMER SIGN AVAKRAHASANYA",
text! "17DD          ; ID_Continue # Mn       KHMER SIGN ATTHACAN",
text! "17E0..17E9    ; ID_Continue # Nd  [10] KHMER DIGIT ZERO..KHMER DIGIT NINE",
text! "180B..180D    ; ID_Continue # Mn   [3] MONGOLIAN FREE VARIATION SELECTOR ONE..MONGOLIAN FREE VARIATION SELECTOR THREE",
text! "180F          ; ID_Continue # Mn       MONGOLIAN FREE VARIATION SELECTOR FOUR"]

/-- lines 7489-7552 -/
def derivedCore117 : List Nat := [
text! "1810..1819    ; ID_Continue # Nd  [10] MONGOLIAN DIGIT ZERO..MONGOLIAN DIGIT NINE",
text! "1820..1842    ; ID_Continue # Lo  [35] MONGOLIAN LETTER A..MONGOLIAN LETTER CHI",
text! "1843          ; ID_Continue # Lm       MONGOLIAN LETTER TODO LONG VOWEL SIGN",
text! "1844..1878    ; ID_Continue # Lo  [53] MONGOLIAN LETTER TODO E..MONGOLIAN LETTER CHA WITH TWO DOTS",
text! "1880..1884    ; ID_Continue # Lo   [5] MONGOLIAN LETTER ALI GALI ANUSVARA ONE..MONGOLIAN LETTER ALI GALI INVERTED UBADAMA",
text! "1885..1886    ; ID_Continue # Mn   [2] MONGOLIAN LETTER ALI GALI BALUDA..MONGOLIAN LETTER ALI GALI THREE BALUDA",
text! "1887..18A8    ; ID_Continue # Lo  [34] MONGOLIAN LETTER ALI GALI A..MONGOLIAN LETTER MANCHU ALI GALI BHA",
text! "18A9          ; ID_Continue # Mn       MONGOLIAN LETTER ALI GALI DAGALGA",
text! "18AA          ; ID_Continue # Lo       MONGOLIAN LETTER MANCHU ALI GALI LHA",
text! "18B0..18F5    ; ID_Continue # Lo  [70] CANADIAN SYLLABICS OY..CANADIAN SYLLABICS CARRIER DENTAL S",
text! "1900..191E    ; ID_Continue # Lo  [31] LIMBU VOWEL-CARRIER LETTER..LIMBU LETTER TRA",
text! "1920..1922    ; ID_Continue # Mn   [3] LIMBU VOWEL SIGN A..LIMBU VOWEL SIGN U",
text! "1923..1926    ; ID_Continue # Mc   [4] LIMBU VOWEL SIGN EE..LIMBU VOWEL SIGN AU",
text! "1927..1928    ; ID_Continue # Mn   [2] LIMBU VOWEL SIGN E..LIMBU VOWEL SIGN O",
text! "1929..192B    ; ID_Continue # Mc   [3] LIMBU SUBJOINED LETTER YA..LIMBU SUBJOINED LETTER WA",
text! "1930..1931    ; ID_Continue # Mc   [2] LIMBU SMALL LETTER KA..LIMBU SMALL LETTER NGA",
text! "1932          ; ID_Continue # Mn       LIMBU SMALL LETTER ANUSVARA",
text! "1933..1938    ; ID_Continue # Mc   [6] LIMBU SMALL LETTER TA..LIMBU SMALL LETTER LA",
text! "1939..193B    ; ID_Continue # Mn   [3] LIMBU SIGN MUKPHRENG..LIMBU SIGN SA-I",
text! "1946..194F    ; ID_Continue # Nd  [10] LIMBU DIGIT ZERO..LIMBU DIGIT NINE",
text! "1950..196D    ; ID_Continue # Lo  [30] TAI LE LETTER KA..TAI LE LETTER AI",
text! "1970..1974    ; ID_Continue # Lo   [5] TAI LE LETTER TONE-2..TAI LE LETTER TONE-6",
text! "1980..19AB    ; ID_Continue # Lo  [44] NEW TAI LUE LETTER HIGH QA..NEW TAI LUE LETTER LOW SUA",
text! "19B0..19C9    ; ID_Continue # Lo  [26] NEW TAI LUE VOWEL SIGN VOWEL SHORTENER..NEW TAI LUE TONE MARK-2",
text! "19D0..19D9    ; ID_Continue # Nd  [10] NEW TAI LUE DIGIT ZERO..NEW TAI LUE DIGIT NINE",
text! "19DA          ; ID_Continue # No       NEW TAI LUE THAM DIGIT ONE",
text! "1A00..1A16    ; ID_Continue # Lo  [23] BUGINESE LETTER KA..BUGINESE LETTER HA",
text! "1A17..1A18    ; ID_Continue # Mn   [2] BUGINESE VOWEL SIGN I..BUGINESE VOWEL SIGN U",
text! "1A19..1A1A    ; ID_Continue # Mc   [2] BUGINESE VOWEL SIGN E..BUGINESE VOWEL SIGN O",
text! "1A1B          ; ID_Continue # Mn       BUGINESE VOWEL SIGN AE",
text! "1A20..1A54    ; ID_Continue # Lo  [53] TAI THAM LETTER HIGH KA..TAI THAM LETTER GREAT SA",
text! "1A55          ; ID_Continue # Mc       TAI THAM CONSONANT SIGN MEDIAL RA",
text! "1A56          ; ID_Continue # Mn       TAI THAM CONSONANT SIGN MEDIAL LA",
text! "1A57          ; ID_Continue # Mc       TAI THAM CONSONANT SIGN LA TANG LAI",
text! "1A58..1A5E    ; ID_Continue # Mn   [7] TAI THAM SIGN MAI KANG LAI..TAI THAM CONSONANT SIGN SA",
text! "1A60          ; ID_Continue # Mn       TAI THAM SIGN SAKOT",
text! "1A61          ; ID_Continue # Mc       TAI THAM VOWEL SIGN A",
text! "1A62          ; ID_Continue # Mn       TAI THAM VOWEL SIGN MAI SAT",
text! "1A63..1A64    ; ID_Continue # Mc   [2] TAI THAM VOWEL SIGN AA..TAI THAM VOWEL SIGN TALL AA",
text! "1A65..1A6C    ; ID_Continue # Mn   [8] TAI THAM VOWEL SIGN I..TAI THAM VOWEL SIGN OA BELOW",
text! "1A6D..1A72    ; ID_Continue # Mc   [6] TAI THAM VOWEL SIGN OY..TAI THAM VOWEL SIGN THAM AI",
text! "1A73..1A7C    ; ID_Continue # Mn  [10] TAI THAM VOWEL SIGN OA ABOVE..TAI THAM SIGN KHUEN-LUE KARAN",
text! "1A7F          ; ID_Continue # Mn       TAI THAM COMBINING CRYPTOGRAMMIC DOT",
text! "1A80..1A89    ; ID_Continue # Nd  [10] TAI THAM HORA DIGIT ZERO..TAI THAM HORA DIGIT NINE",
text! "1A90..1A99    ; ID_Continue # Nd  [10] TAI THAM THAM DIGIT ZERO..TAI THAM THAM DIGIT NINE",
text! "1AA7          ; ID_Continue # Lm       TAI THAM SIGN MAI YAMOK",
text! "1AB0..1ABD    ; ID_Continue # Mn  [14] COMBINING DOUBLED CIRCUMFLEX ACCENT..COMBINING PARENTHESES BELOW",
text! "1ABF..1ADD    ; ID_Continue # Mn  [31] COMBINING LATIN SMALL LETTER W BELOW..COMBINING DOT-AND-RING BELOW",
text! "1AE0..1AEB    ; ID_Continue # Mn  [12] COMBINING LEFT TACK ABOVE..COMBINING DOUBLE RIGHTWARDS ARROW ABOVE",
text! "1B00..1B03    ; ID_Continue # Mn   [4] BALINESE SIGN ULU RICEM..BALINESE SIGN SURANG",
text! "1B04          ; ID_Continue # Mc       BALINESE SIGN BISAH",
text! "1B05..1B33    ; ID_Continue # Lo  [47] BALINESE LETTER AKARA..BALINESE LETTER HA",
text! "1B34          ; ID_Continue # Mn       BALINESE SIGN REREKAN",
text! "1B35          ; ID_Continue # Mc       BALINESE VOWEL SIGN TEDUNG",
text! "1B36..1B3A    ; ID_Continue # Mn   [5] BALINESE VOWEL SIGN ULU..BALINESE VOWEL SIGN RA REPA",
text! "1B3B          ; ID_Continue # Mc       BALINESE VOWEL SIGN RA REPA TEDUNG",
text! "1B3C          ; ID_Continue # Mn       BALINESE VOWEL SIGN LA LENGA",
text! "1B3D..1B41    ; ID_Continue # Mc   [5] BALINESE VOWEL SIGN LA LENGA TEDUNG..BALINESE VOWEL SIGN TALING REPA TEDUNG",
text! "1B42          ; ID_Continue # Mn       BALINESE VOWEL SIGN PEPET",
text! "1B43..1B44    ; ID_Continue # Mc   [2] BALINESE VOWEL SIGN PEPET TEDUNG..BALINESE ADEG ADEG",
text! "1B45..1B4C    ; ID_Continue # Lo   [8] BALINESE LETTER KAF SASAK..BALINESE LETTER ARCHAIC JNYA",
text! "1B50..1B59    ; ID_Continue # Nd  [10] BALINESE DIGIT ZERO..BALINESE DIGIT NINE",
text! "1B6B..1B73    ; ID_Continue # Mn   [9] BALINESE MUSICAL SYMBOL COMBINING TEGEH..BALINESE MUSICAL SYMBOL COMBINING GONG",
text! "1B80..1B81    ; ID_Continue # Mn   [2] SUNDANESE SIGN PANYECEK..SUNDANESE SIGN PANGLAYAR"]

/-- lines 7553-7616 -/
def derivedCore118 : List Nat := [
text! "1B82          ; ID_Continue # Mc       SUNDANESE SIGN PANGWISAD",
text! "1B83..1BA0    ; ID_Continue # Lo  [30] SUNDANESE LETTER A..SUNDANESE LETTER HA",
text! "1BA1          ; ID_Continue # Mc       SUNDANESE CONSONANT SIGN PAMINGKAL",
text! "1BA2..1BA5    ; ID_Continue # Mn   [4] SUNDANESE CONSONANT SIGN PANYAKRA..SUNDANESE VOWEL SIGN PANYUKU",
text! "1BA6..1BA7    ; ID_Continue # Mc   [2] SUNDANESE VOWEL SIGN PANAELAENG..SUNDANESE VOWEL SIGN PANOLONG",
text! "1BA8..1BA9    ; ID_Continue # Mn   [2] SUNDANESE VOWEL SIGN PAMEPET..SUNDANESE VOWEL SIGN PANEULEUNG",
text! "1BAA          ; ID_Continue # Mc       SUNDANESE SIGN PAMAAEH",
text! "1BAB..1BAD    ; ID_Continue # Mn   [3] SUNDANESE SIGN VIRAMA..SUNDANESE CONSONANT SIGN PASANGAN WA",
text! "1BAE..1BAF    ; ID_Continue # Lo   [2] SUNDANESE LETTER KHA..SUNDANESE LETTER SYA",
text! "1BB0..1BB9    ; ID_Continue # Nd  [10] SUNDANESE DIGIT ZERO..SUNDANESE DIGIT NINE",
text! "1BBA..1BE5    ; ID_Continue # Lo  [44] SUNDANESE AVAGRAHA..BATAK LETTER U",
text! "1BE6          ; ID_Continue # Mn       BATAK SIGN TOMPI",
text! "1BE7          ; ID_Continue # Mc       BATAK VOWEL SIGN E",
text! "1BE8..1BE9    ; ID_Continue # Mn   [2] BATAK VOWEL SIGN PAKPAK E..BATAK VOWEL SIGN EE",
text! "1BEA..1BEC    ; ID_Continue # Mc   [3] BATAK VOWEL SIGN I..BATAK VOWEL SIGN O",
text! "1BED          ; ID_Continue # Mn       BATAK VOWEL SIGN KARO O",
text! "1BEE          ; ID_Continue # Mc       BATAK VOWEL SIGN U",
text! "1BEF..1BF1    ; ID_Continue # Mn   [3] BATAK VOWEL SIGN U FOR SIMALUNGUN SA..BATAK CONSONANT SIGN H",
text! "1BF2..1BF3    ; ID_Continue # Mc   [2] BATAK PANGOLAT..BATAK PANONGONAN",
text! "1C00..1C23    ; ID_Continue # Lo  [36] LEPCHA LETTER KA..LEPCHA LETTER A",
text! "1C24..1C2B    ; ID_Continue # Mc   [8] LEPCHA SUBJOINED LETTER YA..LEPCHA VOWEL SIGN UU",
text! "1C2C..1C33    ; ID_Continue # Mn   [8] LEPCHA VOWEL SIGN E..LEPCHA CONSONANT SIGN T",
text! "1C34..1C35    ; ID_Continue # Mc   [2] LEPCHA CONSONANT SIGN NYIN-DO..LEPCHA CONSONANT SIGN KANG",
text! "1C36..1C37    ; ID_Continue # Mn   [2] LEPCHA SIGN RAN..LEPCHA SIGN NUKTA",
text! "1C40..1C49    ; ID_Continue # Nd  [10] LEPCHA DIGIT ZERO..LEPCHA DIGIT NINE",
text! "1C4D..1C4F    ; ID_Continue # Lo   [3] LEPCHA LETTER TTA..LEPCHA LETTER DDA",
text! "1C50..1C59    ; ID_Continue # Nd  [10] OL CHIKI DIGIT ZERO..OL CHIKI DIGIT NINE",
text! "1C5A..1C77    ; ID_Continue # Lo  [30] OL CHIKI LETTER LA..OL CHIKI LETTER OH",
text! "1C78..1C7D    ; ID_Continue # Lm   [6] OL CHIKI MU TTUDDAG..OL CHIKI AHAD",
text! "1C80..1C8A    ; ID_Continue # L&  [11] CYRILLIC SMALL LETTER ROUNDED VE..CYRILLIC SMALL LETTER TJE",
text! "1C90..1CBA    ; ID_Continue # L&  [43] GEORGIAN MTAVRULI CAPITAL LETTER AN..GEORGIAN MTAVRULI CAPITAL LETTER AIN",
text! "1CBD..1CBF    ; ID_Continue # L&   [3] GEORGIAN MTAVRULI CAPITAL LETTER AEN..GEORGIAN MTAVRULI CAPITAL LETTER LABIAL SIGN",
text! "1CD0..1CD2    ; ID_Continue # Mn   [3] VEDIC TONE KARSHANA..VEDIC TONE PRENKHA",
text! "1CD4..1CE0    ; ID_Continue # Mn  [13] VEDIC SIGN YAJURVEDIC MIDLINE SVARITA..VEDIC TONE RIGVEDIC KASHMIRI INDEPENDENT SVARITA",
text! "1CE1          ; ID_Continue # Mc       VEDIC TONE ATHARVAVEDIC INDEPENDENT SVARITA",
text! "1CE2..1CE8    ; ID_Continue # Mn   [7] VEDIC SIGN VISARGA SVARITA..VEDIC SIGN VISARGA ANUDATTA WITH TAIL",
text! "1CE9..1CEC    ; ID_Continue # Lo   [4] VEDIC SIGN ANUSVARA ANTARGOMUKHA..VEDIC SIGN ANUSVARA VAMAGOMUKHA WITH TAIL",
text! "1CED          ; ID_Continue # Mn       VEDIC SIGN TIRYAK",
text! "1CEE..1CF3    ; ID_Continue # Lo   [6] VEDIC SIGN HEXIFORM LONG ANUSVARA..VEDIC SIGN ROTATED ARDHAVISARGA",
text! "1CF4          ; ID_Continue # Mn       VEDIC TONE CANDRA ABOVE",
text! "1CF5..1CF6    ; ID_Continue # Lo   [2] VEDIC SIGN JIHVAMULIYA..VEDIC SIGN UPADHMANIYA",
text! "1CF7          ; ID_Continue # Mc       VEDIC SIGN ATIKRAMA",
text! "1CF8..1CF9    ; ID_Continue # Mn   [2] VEDIC TONE RING ABOVE..VEDIC TONE DOUBLE RING ABOVE",
text! "1CFA          ; ID_Continue # Lo       VEDIC SIGN DOUBLE ANUSVARA ANTARGOMUKHA",
text! "1D00..1D2B    ; ID_Continue # L&  [44] LATIN LETTER SMALL CAPITAL A..CYRILLIC LETTER SMALL CAPITAL EL",
text! "1D2C..1D6A    ; ID_Continue # Lm  [63] MODIFIER LETTER CAPITAL A..GREEK SUBSCRIPT SMALL LETTER CHI",
text! "1D6B..1D77    ; ID_Continue # L&  [13] LATIN SMALL LETTER UE..LATIN SMALL LETTER TURNED G",
text! "1D78          ; ID_Continue # Lm       MODIFIER LETTER CYRILLIC EN",
text! "1D79..1D9A    ; ID_Continue # L&  [34] LATIN SMALL LETTER INSULAR G..LATIN SMALL LETTER EZH WITH RETROFLEX HOOK",
text! "1D9B..1DBF    ; ID_Continue # Lm  [37] MODIFIER LETTER SMALL TURNED ALPHA..MODIFIER LETTER SMALL THETA",
text! "1DC0..1DFF    ; ID_Continue # Mn  [64] COMBINING DOTTED GRAVE ACCENT..COMBINING RIGHT ARROWHEAD AND DOWN ARROWHEAD BELOW",
text! "1E00..1F15    ; ID_Continue # L& [278] LATIN CAPITAL LETTER A WITH RING BELOW..GREEK SMALL LETTER EPSILON WITH DASIA AND OXIA",
text! "1F18..1F1D    ; ID_Continue # L&   [6] GREEK CAPITAL LETTER EPSILON WITH PSILI..GREEK CAPITAL LETTER EPSILON WITH DASIA AND OXIA",
text! "1F20..1F45    ; ID_Continue # L&  [38] GREEK SMALL LETTER ETA WITH PSILI..GREEK SMALL LETTER OMICRON WITH DASIA AND OXIA",
text! "1F48..1F4D    ; ID_Continue # L&   [6] GREEK CAPITAL LETTER OMICRON WITH PSILI..GREEK CAPITAL LETTER OMICRON WITH DASIA AND OXIA",
text! "1F50..1F57    ; ID_Continue # L&   [8] GREEK SMALL LETTER UPSILON WITH PSILI..GREEK SMALL LETTER UPSILON WITH DASIA AND PERISPOMENI",
text! "1F59          ; ID_Continue # L&       GREEK CAPITAL LETTER UPSILON WITH DASIA",
text! "1F5B          ; ID_Continue # L&       GREEK CAPITAL LETTER UPSILON WITH DASIA AND VARIA",
text! "1F5D          ; ID_Continue # L&       GREEK CAPITAL LETTER UPSILON WITH DASIA AND OXIA",
text! "1F5F..1F7D    ; ID_Continue # L&  [31] GREEK CAPITAL LETTER UPSILON WITH DASIA AND PERISPOMENI..GREEK SMALL LETTER OMEGA WITH OXIA",
text! "1F80..1FB4    ; ID_Continue # L&  [53] GREEK SMALL LETTER ALPHA WITH PSILI AND YPOGEGRAMMENI..GREEK SMALL LETTER ALPHA WITH OXIA AND YPOGEGRAMMENI",
text! "1FB6..1FBC    ; ID_Continue # L&   [7] GREEK SMALL LETTER ALPHA WITH PERISPOMENI..GREEK CAPITAL LETTER ALPHA WITH PROSGEGRAMMENI",
text! "1FBE          ; ID_Continue # L&       GREEK PROSGEGRAMMENI",
text! "1FC2..1FC4    ; ID_Continue # L&   [3] GREEK SMALL LETTER ETA WITH VARIA AND YPOGEGRAMMENI..GREEK SMALL LETTER ETA WITH OXIA AND YPOGEGRAMMENI"]

/-- lines 7617-7680 -/
def derivedCore119 : List Nat := [
text! "1FC6..1FCC    ; ID_Continue # L&   [7] GREEK SMALL LETTER ETA WITH PERISPOMENI..GREEK CAPITAL LETTER ETA WITH PROSGEGRAMMENI",
text! "1FD0..1FD3    ; ID_Continue # L&   [4] GREEK SMALL LETTER IOTA WITH VRACHY..GREEK SMALL LETTER IOTA WITH DIALYTIKA AND OXIA",
text! "1FD6..1FDB    ; ID_Continue # L&   [6] GREEK SMALL LETTER IOTA WITH PERISPOMENI..GREEK CAPITAL LETTER IOTA WITH OXIA",
text! "1FE0..1FEC    ; ID_Continue # L&  [13] GREEK SMALL LETTER UPSILON WITH VRACHY..GREEK CAPITAL LETTER RHO WITH DASIA",
text! "1FF2..1FF4    ; ID_Continue # L&   [3] GREEK SMALL LETTER OMEGA WITH VARIA AND YPOGEGRAMMENI..GREEK SMALL LETTER OMEGA WITH OXIA AND YPOGEGRAMMENI",
text! "1FF6..1FFC    ; ID_Continue # L&   [7] GREEK SMALL LETTER OMEGA WITH PERISPOMENI..GREEK CAPITAL LETTER OMEGA WITH PROSGEGRAMMENI",
text! "200C..200D    ; ID_Continue # Cf   [2] ZERO WIDTH NON-JOINER..ZERO WIDTH JOINER",
text! "203F..2040    ; ID_Continue # Pc   [2] UNDERTIE..CHARACTER TIE",
text! "2054          ; ID_Continue # Pc       INVERTED UNDERTIE",
text! "2071          ; ID_Continue # Lm       SUPERSCRIPT LATIN SMALL LETTER I",
text! "207F          ; ID_Continue # Lm       SUPERSCRIPT LATIN SMALL LETTER N",
text! "2090..209C    ; ID_Continue # Lm  [13] LATIN SUBSCRIPT SMALL LETTER A..LATIN SUBSCRIPT SMALL LETTER T",
text! "20D0..20DC    ; ID_Continue # Mn  [13] COMBINING LEFT HARPOON ABOVE..COMBINING FOUR DOTS ABOVE",
text! "20E1          ; ID_Continue # Mn       COMBINING LEFT RIGHT ARROW ABOVE",
text! "20E5..20F0    ; ID_Continue # Mn  [12] COMBINING REVERSE SOLIDUS OVERLAY..COMBINING ASTERISK ABOVE",
text! "2102          ; ID_Continue # L&       DOUBLE-STRUCK CAPITAL C",
text! "2107          ; ID_Continue # L&       EULER CONSTANT",
text! "210A..2113    ; ID_Continue # L&  [10] SCRIPT SMALL G..SCRIPT SMALL L",
text! "2115          ; ID_Continue # L&       DOUBLE-STRUCK CAPITAL N",
text! "2118          ; ID_Continue # Sm       SCRIPT CAPITAL P",
text! "2119..211D    ; ID_Continue # L&   [5] DOUBLE-STRUCK CAPITAL P..DOUBLE-STRUCK CAPITAL R",
text! "2124          ; ID_Continue # L&       DOUBLE-STRUCK CAPITAL Z",
text! "2126          ; ID_Continue # L&       OHM SIGN",
text! "2128          ; ID_Continue # L&       BLACK-LETTER CAPITAL Z",
text! "212A..212D    ; ID_Continue # L&   [4] KELVIN SIGN..BLACK-LETTER CAPITAL C",
text! "212E          ; ID_Continue # So       ESTIMATED SYMBOL",
text! "212F..2134    ; ID_Continue # L&   [6] SCRIPT SMALL E..SCRIPT SMALL O",
text! "2135..2138    ; ID_Continue # Lo   [4] ALEF SYMBOL..DALET SYMBOL",
text! "2139          ; ID_Continue # L&       INFORMATION SOURCE",
text! "213C..213F    ; ID_Continue # L&   [4] DOUBLE-STRUCK SMALL PI..DOUBLE-STRUCK CAPITAL PI",
text! "2145..2149    ; ID_Continue # L&   [5] DOUBLE-STRUCK ITALIC CAPITAL D..DOUBLE-STRUCK ITALIC SMALL J",
text! "214E          ; ID_Continue # L&       TURNED SMALL F",
text! "2160..2182    ; ID_Continue # Nl  [35] ROMAN NUMERAL ONE..ROMAN NUMERAL TEN THOUSAND",
text! "2183..2184    ; ID_Continue # L&   [2] ROMAN NUMERAL REVERSED ONE HUNDRED..LATIN SMALL LETTER REVERSED C",
text! "2185..2188    ; ID_Continue # Nl   [4] ROMAN NUMERAL SIX LATE FORM..ROMAN NUMERAL ONE HUNDRED THOUSAND",
text! "2C00..2C7B    ; ID_Continue # L& [124] GLAGOLITIC CAPITAL LETTER AZU..LATIN LETTER SMALL CAPITAL TURNED E",
text! "2C7C..2C7D    ; ID_Continue # Lm   [2] LATIN SUBSCRIPT SMALL LETTER J..MODIFIER LETTER CAPITAL V",
text! "2C7E..2CE4    ; ID_Continue # L& [103] LATIN CAPITAL LETTER S WITH SWASH TAIL..COPTIC SYMBOL KAI",
text! "2CEB..2CEE    ; ID_Continue # L&   [4] COPTIC CAPITAL LETTER CRYPTOGRAMMIC SHEI..COPTIC SMALL LETTER CRYPTOGRAMMIC GANGIA",
text! "2CEF..2CF1    ; ID_Continue # Mn   [3] COPTIC COMBINING NI ABOVE..COPTIC COMBINING SPIRITUS LENIS",
text! "2CF2..2CF3    ; ID_Continue # L&   [2] COPTIC CAPITAL LETTER BOHAIRIC KHEI..COPTIC SMALL LETTER BOHAIRIC KHEI",
text! "2D00..2D25    ; ID_Continue # L&  [38] GEORGIAN SMALL LETTER AN..GEORGIAN SMALL LETTER HOE",
text! "2D27          ; ID_Continue # L&       GEORGIAN SMALL LETTER YN",
text! "2D2D          ; ID_Continue # L&       GEORGIAN SMALL LETTER AEN",
text! "2D30..2D67    ; ID_Continue # Lo  [56] TIFINAGH LETTER YA..TIFINAGH LETTER YO",
text! "2D6F          ; ID_Continue # Lm       TIFINAGH MODIFIER LETTER LABIALIZATION MARK",
text! "2D7F          ; ID_Continue # Mn       TIFINAGH CONSONANT JOINER",
text! "2D80..2D96    ; ID_Continue # Lo  [23] ETHIOPIC SYLLABLE LOA..ETHIOPIC SYLLABLE GGWE",
text! "2DA0..2DA6    ; ID_Continue # Lo   [7] ETHIOPIC SYLLABLE SSA..ETHIOPIC SYLLABLE SSO",
text! "2DA8..2DAE    ; ID_Continue # Lo   [7] ETHIOPIC SYLLABLE CCA..ETHIOPIC SYLLABLE CCO",
text! "2DB0..2DB6    ; ID_Continue # Lo   [7] ETHIOPIC SYLLABLE ZZA..ETHIOPIC SYLLABLE ZZO",
text! "2DB8..2DBE    ; ID_Continue # Lo   [7] ETHIOPIC SYLLABLE CCHA..ETHIOPIC SYLLABLE CCHO",
text! "2DC0..2DC6    ; ID_Continue # Lo   [7] ETHIOPIC SYLLABLE QYA..ETHIOPIC SYLLABLE QYO",
text! "2DC8..2DCE    ; ID_Continue # Lo   [7] ETHIOPIC SYLLABLE KYA..ETHIOPIC SYLLABLE KYO",
text! "2DD0..2DD6    ; ID_Continue # Lo   [7] ETHIOPIC SYLLABLE XYA..ETHIOPIC SYLLABLE XYO",
text! "2DD8..2DDE    ; ID_Continue # Lo   [7] ETHIOPIC SYLLABLE GYA..ETHIOPIC SYLLABLE GYO",
text! "2DE0..2DFF    ; ID_Continue # Mn  [32] COMBINING CYRILLIC LETTER BE..COMBINING CYRILLIC LETTER IOTIFIED BIG YUS",
text! "3005          ; ID_Continue # Lm       IDEOGRAPHIC ITERATION MARK",
text! "3006          ; ID_Continue # Lo       IDEOGRAPHIC CLOSING MARK",
text! "3007          ; ID_Continue # Nl       IDEOGRAPHIC NUMBER ZERO",
text! "3021..3029    ; ID_Continue # Nl   [9] HANGZHOU NUMERAL ONE..HANGZHOU NUMERAL NINE",
text! "302A..302D    ; ID_Continue # Mn   [4] IDEOGRAPHIC LEVEL TONE MARK..IDEOGRAPHIC ENTERING TONE MARK",
text! "302E..302F    ; ID_Continue # Mc   [2] HANGUL SINGLE DOT TONE MARK..HANGUL DOUBLE DOT TONE MARK",
text! "3031..3035    ; ID_Continue # Lm   [5] VERTICAL KANA REPEAT MARK..VERTICAL KANA REPEAT MARK LOWER HALF"]

/-- lines 7681-7744 -/
def derivedCore120 : List Nat := [
text! "3038..303A    ; ID_Continue # Nl   [3] HANGZHOU NUMERAL TEN..HANGZHOU NUMERAL THIRTY",
text! "303B          ; ID_Continue # Lm       VERTICAL IDEOGRAPHIC ITERATION MARK",
text! "303C          ; ID_Continue # Lo       MASU MARK",
text! "3041..3096    ; ID_Continue # Lo  [86] HIRAGANA LETTER SMALL A..HIRAGANA LETTER SMALL KE",
text! "3099..309A    ; ID_Continue # Mn   [2] COMBINING KATAKANA-HIRAGANA VOICED SOUND MARK..COMBINING KATAKANA-HIRAGANA SEMI-VOICED SOUND MARK",
text! "309B..309C    ; ID_Continue # Sk   [2] KATAKANA-HIRAGANA VOICED SOUND MARK..KATAKANA-HIRAGANA SEMI-VOICED SOUND MARK",
text! "309D..309E    ; ID_Continue # Lm   [2] HIRAGANA ITERATION MARK..HIRAGANA VOICED ITERATION MARK",
text! "309F          ; ID_Continue # Lo       HIRAGANA DIGRAPH YORI",
text! "30A1..30FA    ; ID_Continue # Lo  [90] KATAKANA LETTER SMALL A..KATAKANA LETTER VO",
text! "30FB          ; ID_Continue # Po       KATAKANA MIDDLE DOT",
text! "30FC..30FE    ; ID_Continue # Lm   [3] KATAKANA-HIRAGANA PROLONGED SOUND MARK..KATAKANA VOICED ITERATION MARK",
text! "30FF          ; ID_Continue # Lo       KATAKANA DIGRAPH KOTO",
text! "3105..312F    ; ID_Continue # Lo  [43] BOPOMOFO LETTER B..BOPOMOFO LETTER NN",
text! "3131..318E    ; ID_Continue # Lo  [94] HANGUL LETTER KIYEOK..HANGUL LETTER ARAEAE",
text! "31A0..31BF    ; ID_Continue # Lo  [32] BOPOMOFO LETTER BU..BOPOMOFO LETTER AH",
text! "31F0..31FF    ; ID_Continue # Lo  [16] KATAKANA LETTER SMALL KU..KATAKANA LETTER SMALL RO",
text! "3400..4DBF    ; ID_Continue # Lo [6592] CJK UNIFIED IDEOGRAPH-3400..CJK UNIFIED IDEOGRAPH-4DBF",
text! "4E00..A014    ; ID_Continue # Lo [21013] CJK UNIFIED IDEOGRAPH-4E00..YI SYLLABLE E",
text! "A015          ; ID_Continue # Lm       YI SYLLABLE WU",
text! "A016..A48C    ; ID_Continue # Lo [1143] YI SYLLABLE BIT..YI SYLLABLE YYR",
text! "A4D0..A4F7    ; ID_Continue # Lo  [40] LISU LETTER BA..LISU LETTER OE",
text! "A4F8..A4FD    ; ID_Continue # Lm   [6] LISU LETTER TONE MYA TI..LISU LETTER TONE MYA JEU",
text! "A500..A60B    ; ID_Continue # Lo [268] VAI SYLLABLE EE..VAI SYLLABLE NG",
text! "A60C          ; ID_Continue # Lm       VAI SYLLABLE LENGTHENER",
text! "A610..A61F    ; ID_Continue # Lo  [16] VAI SYLLABLE NDOLE FA..VAI SYMBOL JONG",
text! "A620..A629    ; ID_Continue # Nd  [10] VAI DIGIT ZERO..VAI DIGIT NINE",
text! "A62A..A62B    ; ID_Continue # Lo   [2] VAI SYLLABLE NDOLE MA..VAI SYLLABLE NDOLE DO",
text! "A640..A66D    ; ID_Continue # L&  [46] CYRILLIC CAPITAL LETTER ZEMLYA..CYRILLIC SMALL LETTER DOUBLE MONOCULAR O",
text! "A66E          ; ID_Continue # Lo       CYRILLIC LETTER MULTIOCULAR O",
text! "A66F          ; ID_Continue # Mn       COMBINING CYRILLIC VZMET",
text! "A674..A67D    ; ID_Continue # Mn  [10] COMBINING CYRILLIC LETTER UKRAINIAN IE..COMBINING CYRILLIC PAYEROK",
text! "A67F          ; ID_Continue # Lm       CYRILLIC PAYEROK",
text! "A680..A69B    ; ID_Continue # L&  [28] CYRILLIC CAPITAL LETTER DWE..CYRILLIC SMALL LETTER CROSSED O",
text! "A69C..A69D    ; ID_Continue # Lm   [2] MODIFIER LETTER CYRILLIC HARD SIGN..MODIFIER LETTER CYRILLIC SOFT SIGN",
text! "A69E..A69F    ; ID_Continue # Mn   [2] COMBINING CYRILLIC LETTER EF..COMBINING CYRILLIC LETTER IOTIFIED E",
text! "A6A0..A6E5    ; ID_Continue # Lo  [70] BAMUM LETTER A..BAMUM LETTER KI",
text! "A6E6..A6EF    ; ID_Continue # Nl  [10] BAMUM LETTER MO..BAMUM LETTER KOGHOM",
text! "A6F0..A6F1    ; ID_Continue # Mn   [2] BAMUM COMBINING MARK KOQNDON..BAMUM COMBINING MARK TUKWENTIS",
text! "A717..A71F    ; ID_Continue # Lm   [9] MODIFIER LETTER DOT VERTICAL BAR..MODIFIER LETTER LOW INVERTED EXCLAMATION MARK",
text! "A722..A76F    ; ID_Continue # L&  [78] LATIN CAPITAL LETTER EGYPTOLOGICAL ALEF..LATIN SMALL LETTER CON",
text! "A770          ; ID_Continue # Lm       MODIFIER LETTER US",
text! "A771..A787    ; ID_Continue # L&  [23] LATIN SMALL LETTER DUM..LATIN SMALL LETTER INSULAR T",
text! "A788          ; ID_Continue # Lm       MODIFIER LETTER LOW CIRCUMFLEX ACCENT",
text! "A78B..A78E    ; ID_Continue # L&   [4] LATIN CAPITAL LETTER SALTILLO..LATIN SMALL LETTER L WITH RETROFLEX HOOK AND BELT",
text! "A78F          ; ID_Continue # Lo       LATIN LETTER SINOLOGICAL DOT",
text! "A790..A7DC    ; ID_Continue # L&  [77] LATIN CAPITAL LETTER N WITH DESCENDER..LATIN CAPITAL LETTER LAMBDA WITH STROKE",
text! "A7F1..A7F4    ; ID_Continue # Lm   [4] MODIFIER LETTER CAPITAL S..MODIFIER LETTER CAPITAL Q",
text! "A7F5..A7F6    ; ID_Continue # L&   [2] LATIN CAPITAL LETTER REVERSED HALF H..LATIN SMALL LETTER REVERSED HALF H",
text! "A7F7          ; ID_Continue # Lo       LATIN EPIGRAPHIC LETTER SIDEWAYS I",
text! "A7F8..A7F9    ; ID_Continue # Lm   [2] MODIFIER LETTER CAPITAL H WITH STROKE..MODIFIER LETTER SMALL LIGATURE OE",
text! "A7FA          ; ID_Continue # L&       LATIN LETTER SMALL CAPITAL TURNED M",
text! "A7FB..A801    ; ID_Continue # Lo   [7] LATIN EPIGRAPHIC LETTER REVERSED F..SYLOTI NAGRI LETTER I",
text! "A802          ; ID_Continue # Mn       SYLOTI NAGRI SIGN DVISVARA",
text! "A803..A805    ; ID_Continue # Lo   [3] SYLOTI NAGRI LETTER U..SYLOTI NAGRI LETTER O",
text! "A806          ; ID_Continue # Mn       SYLOTI NAGRI SIGN HASANTA",
text! "A807..A80A    ; ID_Continue # Lo   [4] SYLOTI NAGRI LETTER KO..SYLOTI NAGRI LETTER GHO",
text! "A80B          ; ID_Continue # Mn       SYLOTI NAGRI SIGN ANUSVARA",
text! "A80C..A822    ; ID_Continue # Lo  [23] SYLOTI NAGRI LETTER CO..SYLOTI NAGRI LETTER HO",
text! "A823..A824    ; ID_Continue # Mc   [2] SYLOTI NAGRI VOWEL SIGN A..SYLOTI NAGRI VOWEL SIGN I",
text! "A825..A826    ; ID_Continue # Mn   [2] SYLOTI NAGRI VOWEL SIGN U..SYLOTI NAGRI VOWEL SIGN E",
text! "A827          ; ID_Continue # Mc       SYLOTI NAGRI VOWEL SIGN OO",
text! "A82C          ; ID_Continue # Mn       SYLOTI NAGRI SIGN ALTERNATE HASANTA",
text! "A840..A873    ; ID_Continue # Lo  [52] PHAGS-PA LETTER KA..PHAGS-PA LETTER CANDRABINDU",
text! "A880..A881    ; ID_Continue # Mc   [2] SAURASHTRA SIGN ANUSVARA..SAURASHTRA SIGN VISARGA"]

/-- lines 7745-7808 -/
def derivedCore121 : List Nat := [
text! "A882..A8B3    ; ID_Continue # Lo  [50] SAURASHTRA LETTER A..SAURASHTRA LETTER LLA",
text! "A8B4..A8C3    ; ID_Continue # Mc  [16] SAURASHTRA CONSONANT SIGN HAARU..SAURASHTRA VOWEL SIGN AU",
text! "A8C4..A8C5    ; ID_Continue # Mn   [2] SAURASHTRA SIGN VIRAMA..SAURASHTRA SIGN CANDRABINDU",
text! "A8D0..A8D9    ; ID_Continue # Nd  [10] SAURASHTRA DIGIT ZERO..SAURASHTRA DIGIT NINE",
text! "A8E0..A8F1    ; ID_Continue # Mn  [18] COMBINING DEVANAGARI DIGIT ZERO..COMBINING DEVANAGARI SIGN AVAGRAHA",
text! "A8F2..A8F7    ; ID_Continue # Lo   [6] DEVANAGARI SIGN SPACING CANDRABINDU..DEVANAGARI SIGN CANDRABINDU AVAGRAHA",
text! "A8FB          ; ID_Continue # Lo       DEVANAGARI HEADSTROKE",
text! "A8FD..A8FE    ; ID_Continue # Lo   [2] DEVANAGARI JAIN OM..DEVANAGARI LETTER AY",
text! "A8FF          ; ID_Continue # Mn       DEVANAGARI VOWEL SIGN AY",
text! "A900..A909    ; ID_Continue # Nd  [10] KAYAH LI DIGIT ZERO..KAYAH LI DIGIT NINE",
text! "A90A..A925    ; ID_Continue # Lo  [28] KAYAH LI LETTER KA..KAYAH LI LETTER OO",
text! "A926..A92D    ; ID_Continue # Mn   [8] KAYAH LI VOWEL UE..KAYAH LI TONE CALYA PLOPHU",
text! "A930..A946    ; ID_Continue # Lo  [23] REJANG LETTER KA..REJANG LETTER A",
text! "A947..A951    ; ID_Continue # Mn  [11] REJANG VOWEL SIGN I..REJANG CONSONANT SIGN R",
text! "A952..A953    ; ID_Continue # Mc   [2] REJANG CONSONANT SIGN H..REJANG VIRAMA",
text! "A960..A97C    ; ID_Continue # Lo  [29] HANGUL CHOSEONG TIKEUT-MIEUM..HANGUL CHOSEONG SSANGYEORINHIEUH",
text! "A980..A982    ; ID_Continue # Mn   [3] JAVANESE SIGN PANYANGGA..JAVANESE SIGN LAYAR",
text! "A983          ; ID_Continue # Mc       JAVANESE SIGN WIGNYAN",
text! "A984..A9B2    ; ID_Continue # Lo  [47] JAVANESE LETTER A..JAVANESE LETTER HA",
text! "A9B3          ; ID_Continue # Mn       JAVANESE SIGN CECAK TELU",
text! "A9B4..A9B5    ; ID_Continue # Mc   [2] JAVANESE VOWEL SIGN TARUNG..JAVANESE VOWEL SIGN TOLONG",
text! "A9B6..A9B9    ; ID_Continue # Mn   [4] JAVANESE VOWEL SIGN WULU..JAVANESE VOWEL SIGN SUKU MENDUT",
text! "A9BA..A9BB    ; ID_Continue # Mc   [2] JAVANESE VOWEL SIGN TALING..JAVANESE VOWEL SIGN DIRGA MURE",
text! "A9BC..A9BD    ; ID_Continue # Mn   [2] JAVANESE VOWEL SIGN PEPET..JAVANESE CONSONANT SIGN KERET",
text! "A9BE..A9C0    ; ID_Continue # Mc   [3] JAVANESE CONSONANT SIGN PENGKAL..JAVANESE PANGKON",
text! "A9CF          ; ID_Continue # Lm       JAVANESE PANGRANGKEP",
text! "A9D0..A9D9    ; ID_Continue # Nd  [10] JAVANESE DIGIT ZERO..JAVANESE DIGIT NINE",
text! "A9E0..A9E4    ; ID_Continue # Lo   [5] MYANMAR LETTER SHAN GHA..MYANMAR LETTER SHAN BHA",
text! "A9E5          ; ID_Continue # Mn       MYANMAR SIGN SHAN SAW",
text! "A9E6          ; ID_Continue # Lm       MYANMAR MODIFIER LETTER SHAN REDUPLICATION",
text! "A9E7..A9EF    ; ID_Continue # Lo   [9] MYANMAR LETTER TAI LAING NYA..MYANMAR LETTER TAI LAING NNA",
text! "A9F0..A9F9    ; ID_Continue # Nd  [10] MYANMAR TAI LAING DIGIT ZERO..MYANMAR TAI LAING DIGIT NINE",
text! "A9FA..A9FE    ; ID_Continue # Lo   [5] MYANMAR LETTER TAI LAING LLA..MYANMAR LETTER TAI LAING BHA",
text! "AA00..AA28    ; ID_Continue # Lo  [41] CHAM LETTER A..CHAM LETTER HA",
text! "AA29..AA2E    ; ID_Continue # Mn   [6] CHAM VOWEL SIGN AA..CHAM VOWEL SIGN OE",
text! "AA2F..AA30    ; ID_Continue # Mc   [2] CHAM VOWEL SIGN O..CHAM VOWEL SIGN AI",
text! "AA31..AA32    ; ID_Continue # Mn   [2] CHAM VOWEL SIGN AU..CHAM VOWEL SIGN UE",
text! "AA33..AA34    ; ID_Continue # Mc   [2] CHAM CONSONANT SIGN YA..CHAM CONSONANT SIGN RA",
text! "AA35..AA36    ; ID_Continue # Mn   [2] CHAM CONSONANT SIGN LA..CHAM CONSONANT SIGN WA",
text! "AA40..AA42    ; ID_Continue # Lo   [3] CHAM LETTER FINAL K..CHAM LETTER FINAL NG",
text! "AA43          ; ID_Continue # Mn       CHAM CONSONANT SIGN FINAL NG",
text! "AA44..AA4B    ; ID_Continue # Lo   [8] CHAM LETTER FINAL CH..CHAM LETTER FINAL SS",
text! "AA4C          ; ID_Continue # Mn       CHAM CONSONANT SIGN FINAL M",
text! "AA4D          ; ID_Continue # Mc       CHAM CONSONANT SIGN FINAL H",
text! "AA50..AA59    ; ID_Continue # Nd  [10] CHAM DIGIT ZERO..CHAM DIGIT NINE",
text! "AA60..AA6F    ; ID_Continue # Lo  [16] MYANMAR LETTER KHAMTI GA..MYANMAR LETTER KHAMTI FA",
text! "AA70          ; ID_Continue # Lm       MYANMAR MODIFIER LETTER KHAMTI REDUPLICATION",
text! "AA71..AA76    ; ID_Continue # Lo   [6] MYANMAR LETTER KHAMTI XA..MYANMAR LOGOGRAM KHAMTI HM",
text! "AA7A          ; ID_Continue # Lo       MYANMAR LETTER AITON RA",
text! "AA7B          ; ID_Continue # Mc       MYANMAR SIGN PAO KAREN TONE",
text! "AA7C          ; ID_Continue # Mn       MYANMAR SIGN TAI LAING TONE-2",
text! "AA7D          ; ID_Continue # Mc       MYANMAR SIGN TAI LAING TONE-5",
text! "AA7E..AAAF    ; ID_Continue # Lo  [50] MYANMAR LETTER SHWE PALAUNG CHA..TAI VIET LETTER HIGH O",
text! "AAB0          ; ID_Continue # Mn       TAI VIET MAI KANG",
text! "AAB1          ; ID_Continue # Lo       TAI VIET VOWEL AA",
text! "AAB2..AAB4    ; ID_Continue # Mn   [3] TAI VIET VOWEL I..TAI VIET VOWEL U",
text! "AAB5..AAB6    ; ID_Continue # Lo   [2] TAI VIET VOWEL E..TAI VIET VOWEL O",
text! "AAB7..AAB8    ; ID_Continue # Mn   [2] TAI VIET MAI KHIT..TAI VIET VOWEL IA",
text! "AAB9..AABD    ; ID_Continue # Lo   [5] TAI VIET VOWEL UEA..TAI VIET VOWEL AN",
text! "AABE..AABF    ; ID_Continue # Mn   [2] TAI VIET VOWEL AM..TAI VIET TONE MAI EK",
text! "AAC0          ; ID_Continue # Lo       TAI VIET TONE MAI NUENG",
text! "AAC1          ; ID_Continue # Mn       TAI VIET TONE MAI THO",
text! "AAC2          ; ID_Continue # Lo       TAI VIET TONE MAI SONG",
text! "AADB..AADC    ; ID_Continue # Lo   [2] TAI VIET SYMBOL KON..TAI VIET SYMBOL NUENG"]

/-- lines 7809-7872 -/
def derivedCore122 : List Nat := [
text! "AADD          ; ID_Continue # Lm       TAI VIET SYMBOL SAM",
text! "AAE0..AAEA    ; ID_Continue # Lo  [11] MEETEI MAYEK LETTER E..MEETEI MAYEK LETTER SSA",
text! "AAEB          ; ID_Continue # Mc       MEETEI MAYEK VOWEL SIGN II",
text! "AAEC..AAED    ; ID_Continue # Mn   [2] MEETEI MAYEK VOWEL SIGN UU..MEETEI MAYEK VOWEL SIGN AAI",
text! "AAEE..AAEF    ; ID_Continue # Mc   [2] MEETEI MAYEK VOWEL SIGN AU..MEETEI MAYEK VOWEL SIGN AAU",
text! "AAF2          ; ID_Continue # Lo       MEETEI MAYEK ANJI",
text! "AAF3..AAF4    ; ID_Continue # Lm   [2] MEETEI MAYEK SYLLABLE REPETITION MARK..MEETEI MAYEK WORD REPETITION MARK",
text! "AAF5          ; ID_Continue # Mc       MEETEI MAYEK VOWEL SIGN VISARGA",
text! "AAF6          ; ID_Continue # Mn       MEETEI MAYEK VIRAMA",
text! "AB01..AB06    ; ID_Continue # Lo   [6] ETHIOPIC SYLLABLE TTHU..ETHIOPIC SYLLABLE TTHO",
text! "AB09..AB0E    ; ID_Continue # Lo   [6] ETHIOPIC SYLLABLE DDHU..ETHIOPIC SYLLABLE DDHO",
text! "AB11..AB16    ; ID_Continue # Lo   [6] ETHIOPIC SYLLABLE DZU..ETHIOPIC SYLLABLE DZO",
text! "AB20..AB26    ; ID_Continue # Lo   [7] ETHIOPIC SYLLABLE CCHHA..ETHIOPIC SYLLABLE CCHHO",
text! "AB28..AB2E    ; ID_Continue # Lo   [7] ETHIOPIC SYLLABLE BBA..ETHIOPIC SYLLABLE BBO",
text! "AB30..AB5A    ; ID_Continue # L&  [43] LATIN SMALL LETTER BARRED ALPHA..LATIN SMALL LETTER Y WITH SHORT RIGHT LEG",
text! "AB5C..AB5F    ; ID_Continue # Lm   [4] MODIFIER LETTER SMALL HENG..MODIFIER LETTER SMALL U WITH LEFT HOOK",
text! "AB60..AB68    ; ID_Continue # L&   [9] LATIN SMALL LETTER SAKHA YAT..LATIN SMALL LETTER TURNED R WITH MIDDLE TILDE",
text! "AB69          ; ID_Continue # Lm       MODIFIER LETTER SMALL TURNED W",
text! "AB70..ABBF    ; ID_Continue # L&  [80] CHEROKEE SMALL LETTER A..CHEROKEE SMALL LETTER YA",
text! "ABC0..ABE2    ; ID_Continue # Lo  [35] MEETEI MAYEK LETTER KOK..MEETEI MAYEK LETTER I LONSUM",
text! "ABE3..ABE4    ; ID_Continue # Mc   [2] MEETEI MAYEK VOWEL SIGN ONAP..MEETEI MAYEK VOWEL SIGN INAP",
text! "ABE5          ; ID_Continue # Mn       MEETEI MAYEK VOWEL SIGN ANAP",
text! "ABE6..ABE7    ; ID_Continue # Mc   [2] MEETEI MAYEK VOWEL SIGN YENAP..MEETEI MAYEK VOWEL SIGN SOUNAP",
text! "ABE8          ; ID_Continue # Mn       MEETEI MAYEK VOWEL SIGN UNAP",
text! "ABE9..ABEA    ; ID_Continue # Mc   [2] MEETEI MAYEK VOWEL SIGN CHEINAP..MEETEI MAYEK VOWEL SIGN NUNG",
text! "ABEC          ; ID_Continue # Mc       MEETEI MAYEK LUM IYEK",
text! "ABED          ; ID_Continue # Mn       MEETEI MAYEK APUN IYEK",
text! "ABF0..ABF9    ; ID_Continue # Nd  [10] MEETEI MAYEK DIGIT ZERO..MEETEI MAYEK DIGIT NINE",
text! "AC00..D7A3    ; ID_Continue # Lo [11172] HANGUL SYLLABLE GA..HANGUL SYLLABLE HIH",
text! "D7B0..D7C6    ; ID_Continue # Lo  [23] HANGUL JUNGSEONG O-YEO..HANGUL JUNGSEONG ARAEA-E",
text! "D7CB..D7FB    ; ID_Continue # Lo  [49] HANGUL JONGSEONG NIEUN-RIEUL..HANGUL JONGSEONG PHIEUPH-THIEUTH",
text! "F900..FA6D    ; ID_Continue # Lo [366] CJK COMPATIBILITY IDEOGRAPH-F900..CJK COMPATIBILITY IDEOGRAPH-FA6D",
text! "FA70..FAD9    ; ID_Continue # Lo [106] CJK COMPATIBILITY IDEOGRAPH-FA70..CJK COMPATIBILITY IDEOGRAPH-FAD9",
text! "FB00..FB06    ; ID_Continue # L&   [7] LATIN SMALL LIGATURE FF..LATIN SMALL LIGATURE ST",
text! "FB13..FB17    ; ID_Continue # L&   [5] ARMENIAN SMALL LIGATURE MEN NOW..ARMENIAN SMALL LIGATURE MEN XEH",
text! "FB1D          ; ID_Continue # Lo       HEBREW LETTER YOD WITH HIRIQ",
text! "FB1E          ; ID_Continue # Mn       HEBREW POINT JUDEO-SPANISH VARIKA",
text! "FB1F..FB28    ; ID_Continue # Lo  [10] HEBREW LIGATURE YIDDISH YOD YOD PATAH..HEBREW LETTER WIDE TAV",
text! "FB2A..FB36    ; ID_Continue # Lo  [13] HEBREW LETTER SHIN WITH SHIN DOT..HEBREW LETTER ZAYIN WITH DAGESH",
text! "FB38..FB3C    ; ID_Continue # Lo   [5] HEBREW LETTER TET WITH DAGESH..HEBREW LETTER LAMED WITH DAGESH",
text! "FB3E          ; ID_Continue # Lo       HEBREW LETTER MEM WITH DAGESH",
text! "FB40..FB41    ; ID_Continue # Lo   [2] HEBREW LETTER NUN WITH DAGESH..HEBREW LETTER SAMEKH WITH DAGESH",
text! "FB43..FB44    ; ID_Continue # Lo   [2] HEBREW LETTER FINAL PE WITH DAGESH..HEBREW LETTER PE WITH DAGESH",
text! "FB46..FBB1    ; ID_Continue # Lo [108] HEBREW LETTER TSADI WITH DAGESH..ARABIC LETTER YEH BARREE WITH HAMZA ABOVE FINAL FORM",
text! "FBD3..FD3D    ; ID_Continue # Lo [363] ARABIC LETTER NG ISOLATED FORM..ARABIC LIGATURE ALEF WITH FATHATAN ISOLATED FORM",
text! "FD50..FD8F    ; ID_Continue # Lo  [64] ARABIC LIGATURE TEH WITH JEEM WITH MEEM INITIAL FORM..ARABIC LIGATURE MEEM WITH KHAH WITH MEEM INITIAL FORM",
text! "FD92..FDC7    ; ID_Continue # Lo  [54] ARABIC LIGATURE MEEM WITH JEEM WITH KHAH INITIAL FORM..ARABIC LIGATURE NOON WITH JEEM WITH YEH FINAL FORM",
text! "FDF0..FDFB    ; ID_Continue # Lo  [12] ARABIC LIGATURE SALLA USED AS KORANIC STOP SIGN ISOLATED FORM..ARABIC LIGATURE JALLAJALALOUHOU",
text! "FE00..FE0F    ; ID_Continue # Mn  [16] VARIATION SELECTOR-1..VARIATION SELECTOR-16",
text! "FE20..FE2F    ; ID_Continue # Mn  [16] COMBINING LIGATURE LEFT HALF..COMBINING CYRILLIC TITLO RIGHT HALF",
text! "FE33..FE34    ; ID_Continue # Pc   [2] PRESENTATION FORM FOR VERTICAL LOW LINE..PRESENTATION FORM FOR VERTICAL WAVY LOW LINE",
text! "FE4D..FE4F    ; ID_Continue # Pc   [3] DASHED LOW LINE..WAVY LOW LINE",
text! "FE70..FE74    ; ID_Continue # Lo   [5] ARABIC FATHATAN ISOLATED FORM..ARABIC KASRATAN ISOLATED FORM",
text! "FE76..FEFC    ; ID_Continue # Lo [135] ARABIC FATHA ISOLATED FORM..ARABIC LIGATURE LAM WITH ALEF FINAL FORM",
text! "FF10..FF19    ; ID_Continue # Nd  [10] FULLWIDTH DIGIT ZERO..FULLWIDTH DIGIT NINE",
text! "FF21..FF3A    ; ID_Continue # L&  [26] FULLWIDTH LATIN CAPITAL LETTER A..FULLWIDTH LATIN CAPITAL LETTER Z",
text! "FF3F          ; ID_Continue # Pc       FULLWIDTH LOW LINE",
text! "FF41..FF5A    ; ID_Continue # L&  [26] FULLWIDTH LATIN SMALL LETTER A..FULLWIDTH LATIN SMALL LETTER Z",
text! "FF65          ; ID_Continue # Po       HALFWIDTH KATAKANA MIDDLE DOT",
text! "FF66..FF6F    ; ID_Continue # Lo  [10] HALFWIDTH KATAKANA LETTER WO..HALFWIDTH KATAKANA LETTER SMALL TU",
text! "FF70          ; ID_Continue # Lm       HALFWIDTH KATAKANA-HIRAGANA PROLONGED SOUND MARK",
text! "FF71..FF9D    ; ID_Continue # Lo  [45] HALFWIDTH KATAKANA LETTER A..HALFWIDTH KATAKANA LETTER N",
text! "FF9E..FF9F    ; ID_Continue # Lm   [2] HALFWIDTH KATAKANA VOICED SOUND MARK..HALFWIDTH KATAKANA SEMI-VOICED SOUND MARK",
text! "FFA0..FFBE    ; ID_Continue # Lo  [31] HALFWIDTH HANGUL FILLER..HALFWIDTH HANGUL LETTER HIEUH"]

/-- lines 7873-7936 -/
def derivedCore123 : List Nat := [
text! "FFC2..FFC7    ; ID_Continue # Lo   [6] HALFWIDTH HANGUL LETTER A..HALFWIDTH HANGUL LETTER E",
text! "FFCA..FFCF    ; ID_Continue # Lo   [6] HALFWIDTH HANGUL LETTER YEO..HALFWIDTH HANGUL LETTER OE",
text! "FFD2..FFD7    ; ID_Continue # Lo   [6] HALFWIDTH HANGUL LETTER YO..HALFWIDTH HANGUL LETTER YU",
text! "FFDA..FFDC    ; ID_Continue # Lo   [3] HALFWIDTH HANGUL LETTER EU..HALFWIDTH HANGUL LETTER I",
text! "10000..1000B  ; ID_Continue # Lo  [12] LINEAR B SYLLABLE B008 A..LINEAR B SYLLABLE B046 JE",
text! "1000D..10026  ; ID_Continue # Lo  [26] LINEAR B SYLLABLE B036 JO..LINEAR B SYLLABLE B032 QO",
text! "10028..1003A  ; ID_Continue # Lo  [19] LINEAR B SYLLABLE B060 RA..LINEAR B SYLLABLE B042 WO",
text! "1003C..1003D  ; ID_Continue # Lo   [2] LINEAR B SYLLABLE B017 ZA..LINEAR B SYLLABLE B074 ZE",
text! "1003F..1004D  ; ID_Continue # Lo  [15] LINEAR B SYLLABLE B020 ZO..LINEAR B SYLLABLE B091 TWO",
text! "10050..1005D  ; ID_Continue # Lo  [14] LINEAR B SYMBOL B018..LINEAR B SYMBOL B089",
text! "10080..100FA  ; ID_Continue # Lo [123] LINEAR B IDEOGRAM B100 MAN..LINEAR B IDEOGRAM VESSEL B305",
text! "10140..10174  ; ID_Continue # Nl  [53] GREEK ACROPHONIC ATTIC ONE QUARTER..GREEK ACROPHONIC STRATIAN FIFTY MNAS",
text! "101FD         ; ID_Continue # Mn       PHAISTOS DISC SIGN COMBINING OBLIQUE STROKE",
text! "10280..1029C  ; ID_Continue # Lo  [29] LYCIAN LETTER A..LYCIAN LETTER X",
text! "102A0..102D0  ; ID_Continue # Lo  [49] CARIAN LETTER A..CARIAN LETTER UUU3",
text! "102E0         ; ID_Continue # Mn       COPTIC EPACT THOUSANDS MARK",
text! "10300..1031F  ; ID_Continue # Lo  [32] OLD ITALIC LETTER A..OLD ITALIC LETTER ESS",
text! "1032D..10340  ; ID_Continue # Lo  [20] OLD ITALIC LETTER YE..GOTHIC LETTER PAIRTHRA",
text! "10341         ; ID_Continue # Nl       GOTHIC LETTER NINETY",
text! "10342..10349  ; ID_Continue # Lo   [8] GOTHIC LETTER RAIDA..GOTHIC LETTER OTHAL",
text! "1034A         ; ID_Continue # Nl       GOTHIC LETTER NINE HUNDRED",
text! "10350..10375  ; ID_Continue # Lo  [38] OLD PERMIC LETTER AN..OLD PERMIC LETTER IA",
text! "10376..1037A  ; ID_Continue # Mn   [5] COMBINING OLD PERMIC LETTER AN..COMBINING OLD PERMIC LETTER SII",
text! "10380..1039D  ; ID_Continue # Lo  [30] UGARITIC LETTER ALPA..UGARITIC LETTER SSU",
text! "103A0..103C3  ; ID_Continue # Lo  [36] OLD PERSIAN SIGN A..OLD PERSIAN SIGN HA",
text! "103C8..103CF  ; ID_Continue # Lo   [8] OLD PERSIAN SIGN AURAMAZDAA..OLD PERSIAN SIGN BUUMISH",
text! "103D1..103D5  ; ID_Continue # Nl   [5] OLD PERSIAN NUMBER ONE..OLD PERSIAN NUMBER HUNDRED",
text! "10400..1044F  ; ID_Continue # L&  [80] DESERET CAPITAL LETTER LONG I..DESERET SMALL LETTER EW",
text! "10450..1049D  ; ID_Continue # Lo  [78] SHAVIAN LETTER PEEP..OSMANYA LETTER OO",
text! "104A0..104A9  ; ID_Continue # Nd  [10] OSMANYA DIGIT ZERO..OSMANYA DIGIT NINE",
text! "104B0..104D3  ; ID_Continue # L&  [36] OSAGE CAPITAL LETTER A..OSAGE CAPITAL LETTER ZHA",
text! "104D8..104FB  ; ID_Continue # L&  [36] OSAGE SMALL LETTER A..OSAGE SMALL LETTER ZHA",
text! "10500..10527  ; ID_Continue # Lo  [40] ELBASAN LETTER A..ELBASAN LETTER KHE",
text! "10530..10563  ; ID_Continue # Lo  [52] CAUCASIAN ALBANIAN LETTER ALT..CAUCASIAN ALBANIAN LETTER KIW",
text! "10570..1057A  ; ID_Continue # L&  [11] VITHKUQI CAPITAL LETTER A..VITHKUQI CAPITAL LETTER GA",
text! "1057C..1058A  ; ID_Continue # L&  [15] VITHKUQI CAPITAL LETTER HA..VITHKUQI CAPITAL LETTER RE",
text! "1058C..10592  ; ID_Continue # L&   [7] VITHKUQI CAPITAL LETTER SE..VITHKUQI CAPITAL LETTER XE",
text! "10594..10595  ; ID_Continue # L&   [2] VITHKUQI CAPITAL LETTER Y..VITHKUQI CAPITAL LETTER ZE",
text! "10597..105A1  ; ID_Continue # L&  [11] VITHKUQI SMALL LETTER A..VITHKUQI SMALL LETTER GA",
text! "105A3..105B1  ; ID_Continue # L&  [15] VITHKUQI SMALL LETTER HA..VITHKUQI SMALL LETTER RE",
text! "105B3..105B9  ; ID_Continue # L&   [7] VITHKUQI SMALL LETTER SE..VITHKUQI SMALL LETTER XE",
text! "105BB..105BC  ; ID_Continue # L&   [2] VITHKUQI SMALL LETTER Y..VITHKUQI SMALL LETTER ZE",
text! "105C0..105F3  ; ID_Continue # Lo  [52] TODHRI LETTER A..TODHRI LETTER OO",
text! "10600..10736  ; ID_Continue # Lo [311] LINEAR A SIGN AB001..LINEAR A SIGN A664",
text! "10740..10755  ; ID_Continue # Lo  [22] LINEAR A SIGN A701 A..LINEAR A SIGN A732 JE",
text! "10760..10767  ; ID_Continue # Lo   [8] LINEAR A SIGN A800..LINEAR A SIGN A807",
text! "10780..10785  ; ID_Continue # Lm   [6] MODIFIER LETTER SMALL CAPITAL AA..MODIFIER LETTER SMALL B WITH HOOK",
text! "10787..107B0  ; ID_Continue # Lm  [42] MODIFIER LETTER SMALL DZ DIGRAPH..MODIFIER LETTER SMALL V WITH RIGHT HOOK",
text! "107B2..107BA  ; ID_Continue # Lm   [9] MODIFIER LETTER SMALL CAPITAL Y..MODIFIER LETTER SMALL S WITH CURL",
text! "10800..10805  ; ID_Continue # Lo   [6] CYPRIOT SYLLABLE A..CYPRIOT SYLLABLE JA",
text! "10808         ; ID_Continue # Lo       CYPRIOT SYLLABLE JO",
text! "1080A..10835  ; ID_Continue # Lo  [44] CYPRIOT SYLLABLE KA..CYPRIOT SYLLABLE WO",
text! "10837..10838  ; ID_Continue # Lo   [2] CYPRIOT SYLLABLE XA..CYPRIOT SYLLABLE XE",
text! "1083C         ; ID_Continue # Lo       CYPRIOT SYLLABLE ZA",
text! "1083F..10855  ; ID_Continue # Lo  [23] CYPRIOT SYLLABLE ZO..IMPERIAL ARAMAIC LETTER TAW",
text! "10860..10876  ; ID_Continue # Lo  [23] PALMYRENE LETTER ALEPH..PALMYRENE LETTER TAW",
text! "10880..1089E  ; ID_Continue # Lo  [31] NABATAEAN LETTER FINAL ALEPH..NABATAEAN LETTER TAW",
text! "108E0..108F2  ; ID_Continue # Lo  [19] HATRAN LETTER ALEPH..HATRAN LETTER QOPH",
text! "108F4..108F5  ; ID_Continue # Lo   [2] HATRAN LETTER SHIN..HATRAN LETTER TAW",
text! "10900..10915  ; ID_Continue # Lo  [22] PHOENICIAN LETTER ALF..PHOENICIAN LETTER TAU",
text! "10920..10939  ; ID_Continue # Lo  [26] LYDIAN LETTER A..LYDIAN LETTER C",
text! "10940..10959  ; ID_Continue # Lo  [26] SIDETIC LETTER N01..SIDETIC LETTER N26",
text! "10980..109B7  ; ID_Continue # Lo  [56] MEROITIC HIEROGLYPHIC LETTER A..MEROITIC CURSIVE LETTER DA",
text! "109BE..109BF  ; ID_Continue # Lo   [2] MEROITIC CURSIVE LOGOGRAM RMT..MEROITIC CURSIVE LOGOGRAM IMN"]

/-- lines 7937-8000 -/
def derivedCore124 : List Nat := [
text! "10A00         ; ID_Continue # Lo       KHAROSHTHI LETTER A",
text! "10A01..10A03  ; ID_Continue # Mn   [3] KHAROSHTHI VOWEL SIGN I..KHAROSHTHI VOWEL SIGN VOCALIC R",
text! "10A05..10A06  ; ID_Continue # Mn   [2] KHAROSHTHI VOWEL SIGN E..KHAROSHTHI VOWEL SIGN O",
text! "10A0C..10A0F  ; ID_Continue # Mn   [4] KHAROSHTHI VOWEL LENGTH MARK..KHAROSHTHI SIGN VISARGA",
text! "10A10..10A13  ; ID_Continue # Lo   [4] KHAROSHTHI LETTER KA..KHAROSHTHI LETTER GHA",
text! "10A15..10A17  ; ID_Continue # Lo   [3] KHAROSHTHI LETTER CA..KHAROSHTHI LETTER JA",
text! "10A19..10A35  ; ID_Continue # Lo  [29] KHAROSHTHI LETTER NYA..KHAROSHTHI LETTER VHA",
text! "10A38..10A3A  ; ID_Continue # Mn   [3] KHAROSHTHI SIGN BAR ABOVE..KHAROSHTHI SIGN DOT BELOW",
text! "10A3F         ; ID_Continue # Mn       KHAROSHTHI VIRAMA",
text! "10A60..10A7C  ; ID_Continue # Lo  [29] OLD SOUTH ARABIAN LETTER HE..OLD SOUTH ARABIAN LETTER THETH",
text! "10A80..10A9C  ; ID_Continue # Lo  [29] OLD NORTH ARABIAN LETTER HEH..OLD NORTH ARABIAN LETTER ZAH",
text! "10AC0..10AC7  ; ID_Continue # Lo   [8] MANICHAEAN LETTER ALEPH..MANICHAEAN LETTER WAW",
text! "10AC9..10AE4  ; ID_Continue # Lo  [28] MANICHAEAN LETTER ZAYIN..MANICHAEAN LETTER TAW",
text! "10AE5..10AE6  ; ID_Continue # Mn   [2] MANICHAEAN ABBREVIATION MARK ABOVE..MANICHAEAN ABBREVIATION MARK BELOW",
text! "10B00..10B35  ; ID_Continue # Lo  [54] AVESTAN LETTER A..AVESTAN LETTER HE",
text! "10B40..10B55  ; ID_Continue # Lo  [22] INSCRIPTIONAL PARTHIAN LETTER ALEPH..INSCRIPTIONAL PARTHIAN LETTER TAW",
text! "10B60..10B72  ; ID_Continue # Lo  [19] INSCRIPTIONAL PAHLAVI LETTER ALEPH..INSCRIPTIONAL PAHLAVI LETTER TAW",
text! "10B80..10B91  ; ID_Continue # Lo  [18] PSALTER PAHLAVI LETTER ALEPH..PSALTER PAHLAVI LETTER TAW",
text! "10C00..10C48  ; ID_Continue # Lo  [73] OLD TURKIC LETTER ORKHON A..OLD TURKIC LETTER ORKHON BASH",
text! "10C80..10CB2  ; ID_Continue # L&  [51] OLD HUNGARIAN CAPITAL LETTER A..OLD HUNGARIAN CAPITAL LETTER US",
text! "10CC0..10CF2  ; ID_Continue # L&  [51] OLD HUNGARIAN SMALL LETTER A..OLD HUNGARIAN SMALL LETTER US",
text! "10D00..10D23  ; ID_Continue # Lo  [36] HANIFI ROHINGYA LETTER A..HANIFI ROHINGYA MARK NA KHONNA",
text! "10D24..10D27  ; ID_Continue # Mn   [4] HANIFI ROHINGYA SIGN HARBAHAY..HANIFI ROHINGYA SIGN TASSI",
text! "10D30..10D39  ; ID_Continue # Nd  [10] HANIFI ROHINGYA DIGIT ZERO..HANIFI ROHINGYA DIGIT NINE",
text! "10D40..10D49  ; ID_Continue # Nd  [10] GARAY DIGIT ZERO..GARAY DIGIT NINE",
text! "10D4A..10D4D  ; ID_Continue # Lo   [4] GARAY VOWEL SIGN A..GARAY VOWEL SIGN EE",
text! "10D4E         ; ID_Continue # Lm       GARAY VOWEL LENGTH MARK",
text! "10D4F         ; ID_Continue # Lo       GARAY SUKUN",
text! "10D50..10D65  ; ID_Continue # L&  [22] GARAY CAPITAL LETTER A..GARAY CAPITAL LETTER OLD NA",
text! "10D69..10D6D  ; ID_Continue # Mn   [5] GARAY VOWEL SIGN E..GARAY CONSONANT NASALIZATION MARK",
text! "10D6F         ; ID_Continue # Lm       GARAY REDUPLICATION MARK",
text! "10D70..10D85  ; ID_Continue # L&  [22] GARAY SMALL LETTER A..GARAY SMALL LETTER OLD NA",
text! "10E80..10EA9  ; ID_Continue # Lo  [42] YEZIDI LETTER ELIF..YEZIDI LETTER ET",
text! "10EAB..10EAC  ; ID_Continue # Mn   [2] YEZIDI COMBINING HAMZA MARK..YEZIDI COMBINING MADDA MARK",
text! "10EB0..10EB1  ; ID_Continue # Lo   [2] YEZIDI LETTER LAM WITH DOT ABOVE..YEZIDI LETTER YOT WITH CIRCUMFLEX ABOVE",
text! "10EC2..10EC4  ; ID_Continue # Lo   [3] ARABIC LETTER DAL WITH TWO DOTS VERTICALLY BELOW..ARABIC LETTER KAF WITH TWO DOTS VERTICALLY BELOW",
text! "10EC5         ; ID_Continue # Lm       ARABIC SMALL YEH BARREE WITH TWO DOTS BELOW",
text! "10EC6..10EC7  ; ID_Continue # Lo   [2] ARABIC LETTER THIN NOON..ARABIC LETTER YEH WITH FOUR DOTS BELOW",
text! "10EFA..10EFF  ; ID_Continue # Mn   [6] ARABIC DOUBLE VERTICAL BAR BELOW..ARABIC SMALL LOW WORD MADDA",
text! "10F00..10F1C  ; ID_Continue # Lo  [29] OLD SOGDIAN LETTER ALEPH..OLD SOGDIAN LETTER FINAL TAW WITH VERTICAL TAIL",
text! "10F27         ; ID_Continue # Lo       OLD SOGDIAN LIGATURE AYIN-DALETH",
text! "10F30..10F45  ; ID_Continue # Lo  [22] SOGDIAN LETTER ALEPH..SOGDIAN INDEPENDENT SHIN",
text! "10F46..10F50  ; ID_Continue # Mn  [11] SOGDIAN COMBINING DOT BELOW..SOGDIAN COMBINING STROKE BELOW",
text! "10F70..10F81  ; ID_Continue # Lo  [18] OLD UYGHUR LETTER ALEPH..OLD UYGHUR LETTER LESH",
text! "10F82..10F85  ; ID_Continue # Mn   [4] OLD UYGHUR COMBINING DOT ABOVE..OLD UYGHUR COMBINING TWO DOTS BELOW",
text! "10FB0..10FC4  ; ID_Continue # Lo  [21] CHORASMIAN LETTER ALEPH..CHORASMIAN LETTER TAW",
text! "10FE0..10FF6  ; ID_Continue # Lo  [23] ELYMAIC LETTER ALEPH..ELYMAIC LIGATURE ZAYIN-YODH",
text! "11000         ; ID_Continue # Mc       BRAHMI SIGN CANDRABINDU",
text! "11001         ; ID_Continue # Mn       BRAHMI SIGN ANUSVARA",
text! "11002         ; ID_Continue # Mc       BRAHMI SIGN VISARGA",
text! "11003..11037  ; ID_Continue # Lo  [53] BRAHMI SIGN JIHVAMULIYA..BRAHMI LETTER OLD TAMIL NNNA",
text! "11038..11046  ; ID_Continue # Mn  [15] BRAHMI VOWEL SIGN AA..BRAHMI VIRAMA",
text! "11066..1106F  ; ID_Continue # Nd  [10] BRAHMI DIGIT ZERO..BRAHMI DIGIT NINE",
text! "11070         ; ID_Continue # Mn       BRAHMI SIGN OLD TAMIL VIRAMA",
text! "11071..11072  ; ID_Continue # Lo   [2] BRAHMI LETTER OLD TAMIL SHORT E..BRAHMI LETTER OLD TAMIL SHORT O",
text! "11073..11074  ; ID_Continue # Mn   [2] BRAHMI VOWEL SIGN OLD TAMIL SHORT E..BRAHMI VOWEL SIGN OLD TAMIL SHORT O",
text! "11075         ; ID_Continue # Lo       BRAHMI LETTER OLD TAMIL LLA",
text! "1107F..11081  ; ID_Continue # Mn   [3] BRAHMI NUMBER JOINER..KAITHI SIGN ANUSVARA",
text! "11082         ; ID_Continue # Mc       KAITHI SIGN VISARGA",
text! "11083..110AF  ; ID_Continue # Lo  [45] KAITHI LETTER A..KAITHI LETTER HA",
text! "110B0..110B2  ; ID_Continue # Mc   [3] KAITHI VOWEL SIGN AA..KAITHI VOWEL SIGN II",
text! "110B3..110B6  ; ID_Continue # Mn   [4] KAITHI VOWEL SIGN U..KAITHI VOWEL SIGN AI",
text! "110B7..110B8  ; ID_Continue # Mc   [2] KAITHI VOWEL SIGN O..KAITHI VOWEL SIGN AU",
text! "110B9..110BA  ; ID_Continue # Mn   [2] KAITHI SIGN VIRAMA..KAITHI SIGN NUKTA"]

/-- lines 8001-8064 -/
def derivedCore125 : List Nat := [
text! "110C2         ; ID_Continue # Mn       KAITHI VOWEL SIGN VOCALIC R",
text! "110D0..110E8  ; ID_Continue # Lo  [25] SORA SOMPENG LETTER SAH..SORA SOMPENG LETTER MAE",
text! "110F0..110F9  ; ID_Continue # Nd  [10] SORA SOMPENG DIGIT ZERO..SORA SOMPENG DIGIT NINE",
text! "11100..11102  ; ID_Continue # Mn   [3] CHAKMA SIGN CANDRABINDU..CHAKMA SIGN VISARGA",
text! "11103..11126  ; ID_Continue # Lo  [36] CHAKMA LETTER AA..CHAKMA LETTER HAA",
text! "11127..1112B  ; ID_Continue # Mn   [5] CHAKMA VOWEL SIGN A..CHAKMA VOWEL SIGN UU",
text! "1112C         ; ID_Continue # Mc       CHAKMA VOWEL SIGN E",
text! "1112D..11134  ; ID_Continue # Mn   [8] CHAKMA VOWEL SIGN AI..CHAKMA MAAYYAA",
text! "11136..1113F  ; ID_Continue # Nd  [10] CHAKMA DIGIT ZERO..CHAKMA DIGIT NINE",
text! "11144         ; ID_Continue # Lo       CHAKMA LETTER LHAA",
text! "11145..11146  ; ID_Continue # Mc   [2] CHAKMA VOWEL SIGN AA..CHAKMA VOWEL SIGN EI",
text! "11147         ; ID_Continue # Lo       CHAKMA LETTER VAA",
text! "11150..11172  ; ID_Continue # Lo  [35] MAHAJANI LETTER A..MAHAJANI LETTER RRA",
text! "11173         ; ID_Continue # Mn       MAHAJANI SIGN NUKTA",
text! "11176         ; ID_Continue # Lo       MAHAJANI LIGATURE SHRI",
text! "11180..11181  ; ID_Continue # Mn   [2] SHARADA SIGN CANDRABINDU..SHARADA SIGN ANUSVARA",
text! "11182         ; ID_Continue # Mc       SHARADA SIGN VISARGA",
text! "11183..111B2  ; ID_Continue # Lo  [48] SHARADA LETTER A..SHARADA LETTER HA",
text! "111B3..111B5  ; ID_Continue # Mc   [3] SHARADA VOWEL SIGN AA..SHARADA VOWEL SIGN II",
text! "111B6..111BE  ; ID_Continue # Mn   [9] SHARADA VOWEL SIGN U..SHARADA VOWEL SIGN O",
text! "111BF..111C0  ; ID_Continue # Mc   [2] SHARADA VOWEL SIGN AU..SHARADA SIGN VIRAMA",
text! "111C1..111C4  ; ID_Continue # Lo   [4] SHARADA SIGN AVAGRAHA..SHARADA OM",
text! "111C9..111CC  ; ID_Continue # Mn   [4] SHARADA SANDHI MARK..SHARADA EXTRA SHORT VOWEL MARK",
text! "111CE         ; ID_Continue # Mc       SHARADA VOWEL SIGN PRISHTHAMATRA E",
text! "111CF         ; ID_Continue # Mn       SHARADA SIGN INVERTED CANDRABINDU",
text! "111D0..111D9  ; ID_Continue # Nd  [10] SHARADA DIGIT ZERO..SHARADA DIGIT NINE",
text! "111DA         ; ID_Continue # Lo       SHARADA EKAM",
text! "111DC         ; ID_Continue # Lo       SHARADA HEADSTROKE",
text! "11200..11211  ; ID_Continue # Lo  [18] KHOJKI LETTER A..KHOJKI LETTER JJA",
text! "11213..1122B  ; ID_Continue # Lo  [25] KHOJKI LETTER NYA..KHOJKI LETTER LLA",
text! "1122C..1122E  ; ID_Continue # Mc   [3] KHOJKI VOWEL SIGN AA..KHOJKI VOWEL SIGN II",
text! "1122F..11231  ; ID_Continue # Mn   [3] KHOJKI VOWEL SIGN U..KHOJKI VOWEL SIGN AI",
text! "11232..11233  ; ID_Continue # Mc   [2] KHOJKI VOWEL SIGN O..KHOJKI VOWEL SIGN AU",
text! "11234         ; ID_Continue # Mn       KHOJKI SIGN ANUSVARA",
text! "11235         ; ID_Continue # Mc       KHOJKI SIGN VIRAMA",
text! "11236..11237  ; ID_Continue # Mn   [2] KHOJKI SIGN NUKTA..KHOJKI SIGN SHADDA",
text! "1123E         ; ID_Continue # Mn       KHOJKI SIGN SUKUN",
text! "1123F..11240  ; ID_Continue # Lo   [2] KHOJKI LETTER QA..KHOJKI LETTER SHORT I",
text! "11241         ; ID_Continue # Mn       KHOJKI VOWEL SIGN VOCALIC R",
text! "11280..11286  ; ID_Continue # Lo   [7] MULTANI LETTER A..MULTANI LETTER GA",
text! "11288         ; ID_Continue # Lo       MULTANI LETTER GHA",
text! "1128A..1128D  ; ID_Continue # Lo   [4] MULTANI LETTER CA..MULTANI LETTER JJA",
text! "1128F..1129D  ; ID_Continue # Lo  [15] MULTANI LETTER NYA..MULTANI LETTER BA",
text! "1129F..112A8  ; ID_Continue # Lo  [10] MULTANI LETTER BHA..MULTANI LETTER RHA",
text! "112B0..112DE  ; ID_Continue # Lo  [47] KHUDAWADI LETTER A..KHUDAWADI LETTER HA",
text! "112DF         ; ID_Continue # Mn       KHUDAWADI SIGN ANUSVARA",
text! "112E0..112E2  ; ID_Continue # Mc   [3] KHUDAWADI VOWEL SIGN AA..KHUDAWADI VOWEL SIGN II",
text! "112E3..112EA  ; ID_Continue # Mn   [8] KHUDAWADI VOWEL SIGN U..KHUDAWADI SIGN VIRAMA",
text! "112F0..112F9  ; ID_Continue # Nd  [10] KHUDAWADI DIGIT ZERO..KHUDAWADI DIGIT NINE",
text! "11300..11301  ; ID_Continue # Mn   [2] GRANTHA SIGN COMBINING ANUSVARA ABOVE..GRANTHA SIGN CANDRABINDU",
text! "11302..11303  ; ID_Continue # Mc   [2] GRANTHA SIGN ANUSVARA..GRANTHA SIGN VISARGA",
text! "11305..1130C  ; ID_Continue # Lo   [8] GRANTHA LETTER A..GRANTHA LETTER VOCALIC L",
text! "1130F..11310  ; ID_Continue # Lo   [2] GRANTHA LETTER EE..GRANTHA LETTER AI",
text! "11313..11328  ; ID_Continue # Lo  [22] GRANTHA LETTER OO..GRANTHA LETTER NA",
text! "1132A..11330  ; ID_Continue # Lo   [7] GRANTHA LETTER PA..GRANTHA LETTER RA",
text! "11332..11333  ; ID_Continue # Lo   [2] GRANTHA LETTER LA..GRANTHA LETTER LLA",
text! "11335..11339  ; ID_Continue # Lo   [5] GRANTHA LETTER VA..GRANTHA LETTER HA",
text! "1133B..1133C  ; ID_Continue # Mn   [2] COMBINING BINDU BELOW..GRANTHA SIGN NUKTA",
text! "1133D         ; ID_Continue # Lo       GRANTHA SIGN AVAGRAHA",
text! "1133E..1133F  ; ID_Continue # Mc   [2] GRANTHA VOWEL SIGN AA..GRANTHA VOWEL SIGN I",
text! "11340         ; ID_Continue # Mn       GRANTHA VOWEL SIGN II",
text! "11341..11344  ; ID_Continue # Mc   [4] GRANTHA VOWEL SIGN U..GRANTHA VOWEL SIGN VOCALIC RR",
text! "11347..11348  ; ID_Continue # Mc   [2] GRANTHA VOWEL SIGN EE..GRANTHA VOWEL SIGN AI",
text! "1134B..1134D  ; ID_Continue # Mc   [3] GRANTHA VOWEL SIGN OO..GRANTHA SIGN VIRAMA"]

/-- lines 8065-8128 -/
def derivedCore126 : List Nat := [
text! "11350         ; ID_Continue # Lo       GRANTHA OM",
text! "11357         ; ID_Continue # Mc       GRANTHA AU LENGTH MARK",
text! "1135D..11361  ; ID_Continue # Lo   [5] GRANTHA SIGN PLUTA..GRANTHA LETTER VOCALIC LL",
text! "11362..11363  ; ID_Continue # Mc   [2] GRANTHA VOWEL SIGN VOCALIC L..GRANTHA VOWEL SIGN VOCALIC LL",
text! "11366..1136C  ; ID_Continue # Mn   [7] COMBINING GRANTHA DIGIT ZERO..COMBINING GRANTHA DIGIT SIX",
text! "11370..11374  ; ID_Continue # Mn   [5] COMBINING GRANTHA LETTER A..COMBINING GRANTHA LETTER PA",
text! "11380..11389  ; ID_Continue # Lo  [10] TULU-TIGALARI LETTER A..TULU-TIGALARI LETTER VOCALIC LL",
text! "1138B         ; ID_Continue # Lo       TULU-TIGALARI LETTER EE",
text! "1138E         ; ID_Continue # Lo       TULU-TIGALARI LETTER AI",
text! "11390..113B5  ; ID_Continue # Lo  [38] TULU-TIGALARI LETTER OO..TULU-TIGALARI LETTER LLLA",
text! "113B7         ; ID_Continue # Lo       TULU-TIGALARI SIGN AVAGRAHA",
text! "113B8..113BA  ; ID_Continue # Mc   [3] TULU-TIGALARI VOWEL SIGN AA..TULU-TIGALARI VOWEL SIGN II",
text! "113BB..113C0  ; ID_Continue # Mn   [6] TULU-TIGALARI VOWEL SIGN U..TULU-TIGALARI VOWEL SIGN VOCALIC LL",
text! "113C2         ; ID_Continue # Mc       TULU-TIGALARI VOWEL SIGN EE",
text! "113C5         ; ID_Continue # Mc       TULU-TIGALARI VOWEL SIGN AI",
text! "113C7..113CA  ; ID_Continue # Mc   [4] TULU-TIGALARI VOWEL SIGN OO..TULU-TIGALARI SIGN CANDRA ANUNASIKA",
text! "113CC..113CD  ; ID_Continue # Mc   [2] TULU-TIGALARI SIGN ANUSVARA..TULU-TIGALARI SIGN VISARGA",
text! "113CE         ; ID_Continue # Mn       TULU-TIGALARI SIGN VIRAMA",
text! "113CF         ; ID_Continue # Mc       TULU-TIGALARI SIGN LOOPED VIRAMA",
text! "113D0         ; ID_Continue # Mn       TULU-TIGALARI CONJOINER",
text! "113D1         ; ID_Continue # Lo       TULU-TIGALARI REPHA",
text! "113D2         ; ID_Continue # Mn       TULU-TIGALARI GEMINATION MARK",
text! "113D3         ; ID_Continue # Lo       TULU-TIGALARI SIGN PLUTA",
text! "113E1..113E2  ; ID_Continue # Mn   [2] TULU-TIGALARI VEDIC TONE SVARITA..TULU-TIGALARI VEDIC TONE ANUDATTA",
text! "11400..11434  ; ID_Continue # Lo  [53] NEWA LETTER A..NEWA LETTER HA",
text! "11435..11437  ; ID_Continue # Mc   [3] NEWA VOWEL SIGN AA..NEWA VOWEL SIGN II",
text! "11438..1143F  ; ID_Continue # Mn   [8] NEWA VOWEL SIGN U..NEWA VOWEL SIGN AI",
text! "11440..11441  ; ID_Continue # Mc   [2] NEWA VOWEL SIGN O..NEWA VOWEL SIGN AU",
text! "11442..11444  ; ID_Continue # Mn   [3] NEWA SIGN VIRAMA..NEWA SIGN ANUSVARA",
text! "11445         ; ID_Continue # Mc       NEWA SIGN VISARGA",
text! "11446         ; ID_Continue # Mn       NEWA SIGN NUKTA",
text! "11447..1144A  ; ID_Continue # Lo   [4] NEWA SIGN AVAGRAHA..NEWA SIDDHI",
text! "11450..11459  ; ID_Continue # Nd  [10] NEWA DIGIT ZERO..NEWA DIGIT NINE",
text! "1145E         ; ID_Continue # Mn       NEWA SANDHI MARK",
text! "1145F..11461  ; ID_Continue # Lo   [3] NEWA LETTER VEDIC ANUSVARA..NEWA SIGN UPADHMANIYA",
text! "11480..114AF  ; ID_Continue # Lo  [48] TIRHUTA ANJI..TIRHUTA LETTER HA",
text! "114B0..114B2  ; ID_Continue # Mc   [3] TIRHUTA VOWEL SIGN AA..TIRHUTA VOWEL SIGN II",
text! "114B3..114B8  ; ID_Continue # Mn   [6] TIRHUTA VOWEL SIGN U..TIRHUTA VOWEL SIGN VOCALIC LL",
text! "114B9         ; ID_Continue # Mc       TIRHUTA VOWEL SIGN E",
text! "114BA         ; ID_Continue # Mn       TIRHUTA VOWEL SIGN SHORT E",
text! "114BB..114BE  ; ID_Continue # Mc   [4] TIRHUTA VOWEL SIGN AI..TIRHUTA VOWEL SIGN AU",
text! "114BF..114C0  ; ID_Continue # Mn   [2] TIRHUTA SIGN CANDRABINDU..TIRHUTA SIGN ANUSVARA",
text! "114C1         ; ID_Continue # Mc       TIRHUTA SIGN VISARGA",
text! "114C2..114C3  ; ID_Continue # Mn   [2] TIRHUTA SIGN VIRAMA..TIRHUTA SIGN NUKTA",
text! "114C4..114C5  ; ID_Continue # Lo   [2] TIRHUTA SIGN AVAGRAHA..TIRHUTA GVANG",
text! "114C7         ; ID_Continue # Lo       TIRHUTA OM",
text! "114D0..114D9  ; ID_Continue # Nd  [10] TIRHUTA DIGIT ZERO..TIRHUTA DIGIT NINE",
text! "11580..115AE  ; ID_Continue # Lo  [47] SIDDHAM LETTER A..SIDDHAM LETTER HA",
text! "115AF..115B1  ; ID_Continue # Mc   [3] SIDDHAM VOWEL SIGN AA..SIDDHAM VOWEL SIGN II",
text! "115B2..115B5  ; ID_Continue # Mn   [4] SIDDHAM VOWEL SIGN U..SIDDHAM VOWEL SIGN VOCALIC RR",
text! "115B8..115BB  ; ID_Continue # Mc   [4] SIDDHAM VOWEL SIGN E..SIDDHAM VOWEL SIGN AU",
text! "115BC..115BD  ; ID_Continue # Mn   [2] SIDDHAM SIGN CANDRABINDU..SIDDHAM SIGN ANUSVARA",
text! "115BE         ; ID_Continue # Mc       SIDDHAM SIGN VISARGA",
text! "115BF..115C0  ; ID_Continue # Mn   [2] SIDDHAM SIGN VIRAMA..SIDDHAM SIGN NUKTA",
text! "115D8..115DB  ; ID_Continue # Lo   [4] SIDDHAM LETTER THREE-CIRCLE ALTERNATE I..SIDDHAM LETTER ALTERNATE U",
text! "115DC..115DD  ; ID_Continue # Mn   [2] SIDDHAM VOWEL SIGN ALTERNATE U..SIDDHAM VOWEL SIGN ALTERNATE UU",
text! "11600..1162F  ; ID_Continue # Lo  [48] MODI LETTER A..MODI LETTER LLA",
text! "11630..11632  ; ID_Continue # Mc   [3] MODI VOWEL SIGN AA..MODI VOWEL SIGN II",
text! "11633..1163A  ; ID_Continue # Mn   [8] MODI VOWEL SIGN U..MODI VOWEL SIGN AI",
text! "1163B..1163C  ; ID_Continue # Mc   [2] MODI VOWEL SIGN O..MODI VOWEL SIGN AU",
text! "1163D         ; ID_Continue # Mn       MODI SIGN ANUSVARA",
text! "1163E         ; ID_Continue # Mc       MODI SIGN VISARGA",
text! "1163F..11640  ; ID_Continue # Mn   [2] MODI SIGN VIRAMA..MODI SIGN ARDHACANDRA",
text! "11644         ; ID_Continue # Lo       MODI SIGN HUVA"]

/-- lines 8129-8192 -/
def derivedCore127 : List Nat := [
text! "11650..11659  ; ID_Continue # Nd  [10] MODI DIGIT ZERO..MODI DIGIT NINE",
text! "11680..116AA  ; ID_Continue # Lo  [43] TAKRI LETTER A..TAKRI LETTER RRA",
text! "116AB         ; ID_Continue # Mn       TAKRI SIGN ANUSVARA",
text! "116AC         ; ID_Continue # Mc       TAKRI SIGN VISARGA",
text! "116AD         ; ID_Continue # Mn       TAKRI VOWEL SIGN AA",
text! "116AE..116AF  ; ID_Continue # Mc   [2] TAKRI VOWEL SIGN I..TAKRI VOWEL SIGN II",
text! "116B0..116B5  ; ID_Continue # Mn   [6] TAKRI VOWEL SIGN U..TAKRI VOWEL SIGN AU",
text! "116B6         ; ID_Continue # Mc       TAKRI SIGN VIRAMA",
text! "116B7         ; ID_Continue # Mn       TAKRI SIGN NUKTA",
text! "116B8         ; ID_Continue # Lo       TAKRI LETTER ARCHAIC KHA",
text! "116C0..116C9  ; ID_Continue # Nd  [10] TAKRI DIGIT ZERO..TAKRI DIGIT NINE",
text! "116D0..116E3  ; ID_Continue # Nd  [20] MYANMAR PAO DIGIT ZERO..MYANMAR EASTERN PWO KAREN DIGIT NINE",
text! "11700..1171A  ; ID_Continue # Lo  [27] AHOM LETTER KA..AHOM LETTER ALTERNATE BA",
text! "1171D         ; ID_Continue # Mn       AHOM CONSONANT SIGN MEDIAL LA",
text! "1171E         ; ID_Continue # Mc       AHOM CONSONANT SIGN MEDIAL RA",
text! "1171F         ; ID_Continue # Mn       AHOM CONSONANT SIGN MEDIAL LIGATING RA",
text! "11720..11721  ; ID_Continue # Mc   [2] AHOM VOWEL SIGN A..AHOM VOWEL SIGN AA",
text! "11722..11725  ; ID_Continue # Mn   [4] AHOM VOWEL SIGN I..AHOM VOWEL SIGN UU",
text! "11726         ; ID_Continue # Mc       AHOM VOWEL SIGN E",
text! "11727..1172B  ; ID_Continue # Mn   [5] AHOM VOWEL SIGN AW..AHOM SIGN KILLER",
text! "11730..11739  ; ID_Continue # Nd  [10] AHOM DIGIT ZERO..AHOM DIGIT NINE",
text! "11740..11746  ; ID_Continue # Lo   [7] AHOM LETTER CA..AHOM LETTER LLA",
text! "11800..1182B  ; ID_Continue # Lo  [44] DOGRA LETTER A..DOGRA LETTER RRA",
text! "1182C..1182E  ; ID_Continue # Mc   [3] DOGRA VOWEL SIGN AA..DOGRA VOWEL SIGN II",
text! "1182F..11837  ; ID_Continue # Mn   [9] DOGRA VOWEL SIGN U..DOGRA SIGN ANUSVARA",
text! "11838         ; ID_Continue # Mc       DOGRA SIGN VISARGA",
text! "11839..1183A  ; ID_Continue # Mn   [2] DOGRA SIGN VIRAMA..DOGRA SIGN NUKTA",
text! "118A0..118DF  ; ID_Continue # L&  [64] WARANG CITI CAPITAL LETTER NGAA..WARANG CITI SMALL LETTER VIYO",
text! "118E0..118E9  ; ID_Continue # Nd  [10] WARANG CITI DIGIT ZERO..WARANG CITI DIGIT NINE",
text! "118FF..11906  ; ID_Continue # Lo   [8] WARANG CITI OM..DIVES AKURU LETTER E",
text! "11909         ; ID_Continue # Lo       DIVES AKURU LETTER O",
text! "1190C..11913  ; ID_Continue # Lo   [8] DIVES AKURU LETTER KA..DIVES AKURU LETTER JA",
text! "11915..11916  ; ID_Continue # Lo   [2] DIVES AKURU LETTER NYA..DIVES AKURU LETTER TTA",
text! "11918..1192F  ; ID_Continue # Lo  [24] DIVES AKURU LETTER DDA..DIVES AKURU LETTER ZA",
text! "11930..11935  ; ID_Continue # Mc   [6] DIVES AKURU VOWEL SIGN AA..DIVES AKURU VOWEL SIGN E",
text! "11937..11938  ; ID_Continue # Mc   [2] DIVES AKURU VOWEL SIGN AI..DIVES AKURU VOWEL SIGN O",
text! "1193B..1193C  ; ID_Continue # Mn   [2] DIVES AKURU SIGN ANUSVARA..DIVES AKURU SIGN CANDRABINDU",
text! "1193D         ; ID_Continue # Mc       DIVES AKURU SIGN HALANTA",
text! "1193E         ; ID_Continue # Mn       DIVES AKURU VIRAMA",
text! "1193F         ; ID_Continue # Lo       DIVES AKURU PREFIXED NASAL SIGN",
text! "11940         ; ID_Continue # Mc       DIVES AKURU MEDIAL YA",
text! "11941         ; ID_Continue # Lo       DIVES AKURU INITIAL RA",
text! "11942         ; ID_Continue # Mc       DIVES AKURU MEDIAL RA",
text! "11943         ; ID_Continue # Mn       DIVES AKURU SIGN NUKTA",
text! "11950..11959  ; ID_Continue # Nd  [10] DIVES AKURU DIGIT ZERO..DIVES AKURU DIGIT NINE",
text! "119A0..119A7  ; ID_Continue # Lo   [8] NANDINAGARI LETTER A..NANDINAGARI LETTER VOCALIC RR",
text! "119AA..119D0  ; ID_Continue # Lo  [39] NANDINAGARI LETTER E..NANDINAGARI LETTER RRA",
text! "119D1..119D3  ; ID_Continue # Mc   [3] NANDINAGARI VOWEL SIGN AA..NANDINAGARI VOWEL SIGN II",
text! "119D4..119D7  ; ID_Continue # Mn   [4] NANDINAGARI VOWEL SIGN U..NANDINAGARI VOWEL SIGN VOCALIC RR",
text! "119DA..119DB  ; ID_Continue # Mn   [2] NANDINAGARI VOWEL SIGN E..NANDINAGARI VOWEL SIGN AI",
text! "119DC..119DF  ; ID_Continue # Mc   [4] NANDINAGARI VOWEL SIGN O..NANDINAGARI SIGN VISARGA",
text! "119E0         ; ID_Continue # Mn       NANDINAGARI SIGN VIRAMA",
text! "119E1         ; ID_Continue # Lo       NANDINAGARI SIGN AVAGRAHA",
text! "119E3         ; ID_Continue # Lo       NANDINAGARI HEADSTROKE",
text! "119E4         ; ID_Continue # Mc       NANDINAGARI VOWEL SIGN PRISHTHAMATRA E",
text! "11A00         ; ID_Continue # Lo       ZANABAZAR SQUARE LETTER A",
text! "11A01..11A0A  ; ID_Continue # Mn  [10] ZANABAZAR SQUARE VOWEL SIGN I..ZANABAZAR SQUARE VOWEL LENGTH MARK",
text! "11A0B..11A32  ; ID_Continue # Lo  [40] ZANABAZAR SQUARE LETTER KA..ZANABAZAR SQUARE LETTER KSSA",
text! "11A33..11A38  ; ID_Continue # Mn   [6] ZANABAZAR SQUARE FINAL CONSONANT MARK..ZANABAZAR SQUARE SIGN ANUSVARA",
text! "11A39         ; ID_Continue # Mc       ZANABAZAR SQUARE SIGN VISARGA",
text! "11A3A         ; ID_Continue # Lo       ZANABAZAR SQUARE CLUSTER-INITIAL LETTER RA",
text! "11A3B..11A3E  ; ID_Continue # Mn   [4] ZANABAZAR SQUARE CLUSTER-FINAL LETTER YA..ZANABAZAR SQUARE CLUSTER-FINAL LETTER VA",
text! "11A47         ; ID_Continue # Mn       ZANABAZAR SQUARE SUBJOINER",
text! "11A50         ; ID_Continue # Lo       SOYOMBO LETTER A"]

/-- lines 8193-8256 -/
def derivedCore128 : List Nat := [
text! "11A51..11A56  ; ID_Continue # Mn   [6] SOYOMBO VOWEL SIGN I..SOYOMBO VOWEL SIGN OE",
text! "11A57..11A58  ; ID_Continue # Mc   [2] SOYOMBO VOWEL SIGN AI..SOYOMBO VOWEL SIGN AU",
text! "11A59..11A5B  ; ID_Continue # Mn   [3] SOYOMBO VOWEL SIGN VOCALIC R..SOYOMBO VOWEL LENGTH MARK",
text! "11A5C..11A89  ; ID_Continue # Lo  [46] SOYOMBO LETTER KA..SOYOMBO CLUSTER-INITIAL LETTER SA",
text! "11A8A..11A96  ; ID_Continue # Mn  [13] SOYOMBO FINAL CONSONANT SIGN G..SOYOMBO SIGN ANUSVARA",
text! "11A97         ; ID_Continue # Mc       SOYOMBO SIGN VISARGA",
text! "11A98..11A99  ; ID_Continue # Mn   [2] SOYOMBO GEMINATION MARK..SOYOMBO SUBJOINER",
text! "11A9D         ; ID_Continue # Lo       SOYOMBO MARK PLUTA",
text! "11AB0..11AF8  ; ID_Continue # Lo  [73] CANADIAN SYLLABICS NATTILIK HI..PAU CIN HAU GLOTTAL STOP FINAL",
text! "11B60         ; ID_Continue # Mn       SHARADA VOWEL SIGN OE",
text! "11B61         ; ID_Continue # Mc       SHARADA VOWEL SIGN OOE",
text! "11B62..11B64  ; ID_Continue # Mn   [3] SHARADA VOWEL SIGN UE..SHARADA VOWEL SIGN SHORT E",
text! "11B65         ; ID_Continue # Mc       SHARADA VOWEL SIGN SHORT O",
text! "11B66         ; ID_Continue # Mn       SHARADA VOWEL SIGN CANDRA E",
text! "11B67         ; ID_Continue # Mc       SHARADA VOWEL SIGN CANDRA O",
text! "11BC0..11BE0  ; ID_Continue # Lo  [33] SUNUWAR LETTER DEVI..SUNUWAR LETTER KLOKO",
text! "11BF0..11BF9  ; ID_Continue # Nd  [10] SUNUWAR DIGIT ZERO..SUNUWAR DIGIT NINE",
text! "11C00..11C08  ; ID_Continue # Lo   [9] BHAIKSUKI LETTER A..BHAIKSUKI LETTER VOCALIC L",
text! "11C0A..11C2E  ; ID_Continue # Lo  [37] BHAIKSUKI LETTER E..BHAIKSUKI LETTER HA",
text! "11C2F         ; ID_Continue # Mc       BHAIKSUKI VOWEL SIGN AA",
text! "11C30..11C36  ; ID_Continue # Mn   [7] BHAIKSUKI VOWEL SIGN I..BHAIKSUKI VOWEL SIGN VOCALIC L",
text! "11C38..11C3D  ; ID_Continue # Mn   [6] BHAIKSUKI VOWEL SIGN E..BHAIKSUKI SIGN ANUSVARA",
text! "11C3E         ; ID_Continue # Mc       BHAIKSUKI SIGN VISARGA",
text! "11C3F         ; ID_Continue # Mn       BHAIKSUKI SIGN VIRAMA",
text! "11C40         ; ID_Continue # Lo       BHAIKSUKI SIGN AVAGRAHA",
text! "11C50..11C59  ; ID_Continue # Nd  [10] BHAIKSUKI DIGIT ZERO..BHAIKSUKI DIGIT NINE",
text! "11C72..11C8F  ; ID_Continue # Lo  [30] MARCHEN LETTER KA..MARCHEN LETTER A",
text! "11C92..11CA7  ; ID_Continue # Mn  [22] MARCHEN SUBJOINED LETTER KA..MARCHEN SUBJOINED LETTER ZA",
text! "11CA9         ; ID_Continue # Mc       MARCHEN SUBJOINED LETTER YA",
text! "11CAA..11CB0  ; ID_Continue # Mn   [7] MARCHEN SUBJOINED LETTER RA..MARCHEN VOWEL SIGN AA",
text! "11CB1         ; ID_Continue # Mc       MARCHEN VOWEL SIGN I",
text! "11CB2..11CB3  ; ID_Continue # Mn   [2] MARCHEN VOWEL SIGN U..MARCHEN VOWEL SIGN E",
text! "11CB4         ; ID_Continue # Mc       MARCHEN VOWEL SIGN O",
text! "11CB5..11CB6  ; ID_Continue # Mn   [2] MARCHEN SIGN ANUSVARA..MARCHEN SIGN CANDRABINDU",
text! "11D00..11D06  ; ID_Continue # Lo   [7] MASARAM GONDI LETTER A..MASARAM GONDI LETTER E",
text! "11D08..11D09  ; ID_Continue # Lo   [2] MASARAM GONDI LETTER AI..MASARAM GONDI LETTER O",
text! "11D0B..11D30  ; ID_Continue # Lo  [38] MASARAM GONDI LETTER AU..MASARAM GONDI LETTER TRA",
text! "11D31..11D36  ; ID_Continue # Mn   [6] MASARAM GONDI VOWEL SIGN AA..MASARAM GONDI VOWEL SIGN VOCALIC R",
text! "11D3A         ; ID_Continue # Mn       MASARAM GONDI VOWEL SIGN E",
text! "11D3C..11D3D  ; ID_Continue # Mn   [2] MASARAM GONDI VOWEL SIGN AI..MASARAM GONDI VOWEL SIGN O",
text! "11D3F..11D45  ; ID_Continue # Mn   [7] MASARAM GONDI VOWEL SIGN AU..MASARAM GONDI VIRAMA",
text! "11D46         ; ID_Continue # Lo       MASARAM GONDI REPHA",
text! "11D47         ; ID_Continue # Mn       MASARAM GONDI RA-KARA",
text! "11D50..11D59  ; ID_Continue # Nd  [10] MASARAM GONDI DIGIT ZERO..MASARAM GONDI DIGIT NINE",
text! "11D60..11D65  ; ID_Continue # Lo   [6] GUNJALA GONDI LETTER A..GUNJALA GONDI LETTER UU",
text! "11D67..11D68  ; ID_Continue # Lo   [2] GUNJALA GONDI LETTER EE..GUNJALA GONDI LETTER AI",
text! "11D6A..11D89  ; ID_Continue # Lo  [32] GUNJALA GONDI LETTER OO..GUNJALA GONDI LETTER SA",
text! "11D8A..11D8E  ; ID_Continue # Mc   [5] GUNJALA GONDI VOWEL SIGN AA..GUNJALA GONDI VOWEL SIGN UU",
text! "11D90..11D91  ; ID_Continue # Mn   [2] GUNJALA GONDI VOWEL SIGN EE..GUNJALA GONDI VOWEL SIGN AI",
text! "11D93..11D94  ; ID_Continue # Mc   [2] GUNJALA GONDI VOWEL SIGN OO..GUNJALA GONDI VOWEL SIGN AU",
text! "11D95         ; ID_Continue # Mn       GUNJALA GONDI SIGN ANUSVARA",
text! "11D96         ; ID_Continue # Mc       GUNJALA GONDI SIGN VISARGA",
text! "11D97         ; ID_Continue # Mn       GUNJALA GONDI VIRAMA",
text! "11D98         ; ID_Continue # Lo       GUNJALA GONDI OM",
text! "11DA0..11DA9  ; ID_Continue # Nd  [10] GUNJALA GONDI DIGIT ZERO..GUNJALA GONDI DIGIT NINE",
text! "11DB0..11DD8  ; ID_Continue # Lo  [41] TOLONG SIKI LETTER I..TOLONG SIKI LETTER RRH",
text! "11DD9         ; ID_Continue # Lm       TOLONG SIKI SIGN SELA",
text! "11DDA..11DDB  ; ID_Continue # Lo   [2] TOLONG SIKI SIGN HECAKA..TOLONG SIKI UNGGA",
text! "11DE0..11DE9  ; ID_Continue # Nd  [10] TOLONG SIKI DIGIT ZERO..TOLONG SIKI DIGIT NINE",
text! "11EE0..11EF2  ; ID_Continue # Lo  [19] MAKASAR LETTER KA..MAKASAR ANGKA",
text! "11EF3..11EF4  ; ID_Continue # Mn   [2] MAKASAR VOWEL SIGN I..MAKASAR VOWEL SIGN U",
text! "11EF5..11EF6  ; ID_Continue # Mc   [2] MAKASAR VOWEL SIGN E..MAKASAR VOWEL SIGN O",
text! "11F00..11F01  ; ID_Continue # Mn   [2] KAWI SIGN CANDRABINDU..KAWI SIGN ANUSVARA",
text! "11F02         ; ID_Continue # Lo       KAWI SIGN REPHA"]

/-- lines 8257-8320 -/
def derivedCore129 : List Nat := [
text! "11F03         ; ID_Continue # Mc       KAWI SIGN VISARGA",
text! "11F04..11F10  ; ID_Continue # Lo  [13] KAWI LETTER A..KAWI LETTER O",
text! "11F12..11F33  ; ID_Continue # Lo  [34] KAWI LETTER KA..KAWI LETTER JNYA",
text! "11F34..11F35  ; ID_Continue # Mc   [2] KAWI VOWEL SIGN AA..KAWI VOWEL SIGN ALTERNATE AA",
text! "11F36..11F3A  ; ID_Continue # Mn   [5] KAWI VOWEL SIGN I..KAWI VOWEL SIGN VOCALIC R",
text! "11F3E..11F3F  ; ID_Continue # Mc   [2] KAWI VOWEL SIGN E..KAWI VOWEL SIGN AI",
text! "11F40         ; ID_Continue # Mn       KAWI VOWEL SIGN EU",
text! "11F41         ; ID_Continue # Mc       KAWI SIGN KILLER",
text! "11F42         ; ID_Continue # Mn       KAWI CONJOINER",
text! "11F50..11F59  ; ID_Continue # Nd  [10] KAWI DIGIT ZERO..KAWI DIGIT NINE",
text! "11F5A         ; ID_Continue # Mn       KAWI SIGN NUKTA",
text! "11FB0         ; ID_Continue # Lo       LISU LETTER YHA",
text! "12000..12399  ; ID_Continue # Lo [922] CUNEIFORM SIGN A..CUNEIFORM SIGN U U",
text! "12400..1246E  ; ID_Continue # Nl [111] CUNEIFORM NUMERIC SIGN TWO ASH..CUNEIFORM NUMERIC SIGN NINE U VARIANT FORM",
text! "12480..12543  ; ID_Continue # Lo [196] CUNEIFORM SIGN AB TIMES NUN TENU..CUNEIFORM SIGN ZU5 TIMES THREE DISH TENU",
text! "12F90..12FF0  ; ID_Continue # Lo  [97] CYPRO-MINOAN SIGN CM001..CYPRO-MINOAN SIGN CM114",
text! "13000..1342F  ; ID_Continue # Lo [1072] EGYPTIAN HIEROGLYPH A001..EGYPTIAN HIEROGLYPH V011D",
text! "13440         ; ID_Continue # Mn       EGYPTIAN HIEROGLYPH MIRROR HORIZONTALLY",
text! "13441..13446  ; ID_Continue # Lo   [6] EGYPTIAN HIEROGLYPH FULL BLANK..EGYPTIAN HIEROGLYPH WIDE LOST SIGN",
text! "13447..13455  ; ID_Continue # Mn  [15] EGYPTIAN HIEROGLYPH MODIFIER DAMAGED AT TOP START..EGYPTIAN HIEROGLYPH MODIFIER DAMAGED",
text! "13460..143FA  ; ID_Continue # Lo [3995] EGYPTIAN HIEROGLYPH-13460..EGYPTIAN HIEROGLYPH-143FA",
text! "14400..14646  ; ID_Continue # Lo [583] ANATOLIAN HIEROGLYPH A001..ANATOLIAN HIEROGLYPH A530",
text! "16100..1611D  ; ID_Continue # Lo  [30] GURUNG KHEMA LETTER A..GURUNG KHEMA LETTER SA",
text! "1611E..16129  ; ID_Continue # Mn  [12] GURUNG KHEMA VOWEL SIGN AA..GURUNG KHEMA VOWEL LENGTH MARK",
text! "1612A..1612C  ; ID_Continue # Mc   [3] GURUNG KHEMA CONSONANT SIGN MEDIAL YA..GURUNG KHEMA CONSONANT SIGN MEDIAL HA",
text! "1612D..1612F  ; ID_Continue # Mn   [3] GURUNG KHEMA SIGN ANUSVARA..GURUNG KHEMA SIGN THOLHOMA",
text! "16130..16139  ; ID_Continue # Nd  [10] GURUNG KHEMA DIGIT ZERO..GURUNG KHEMA DIGIT NINE",
text! "16800..16A38  ; ID_Continue # Lo [569] BAMUM LETTER PHASE-A NGKUE MFON..BAMUM LETTER PHASE-F VUEQ",
text! "16A40..16A5E  ; ID_Continue # Lo  [31] MRO LETTER TA..MRO LETTER TEK",
text! "16A60..16A69  ; ID_Continue # Nd  [10] MRO DIGIT ZERO..MRO DIGIT NINE",
text! "16A70..16ABE  ; ID_Continue # Lo  [79] TANGSA LETTER OZ..TANGSA LETTER ZA",
text! "16AC0..16AC9  ; ID_Continue # Nd  [10] TANGSA DIGIT ZERO..TANGSA DIGIT NINE",
text! "16AD0..16AED  ; ID_Continue # Lo  [30] BASSA VAH LETTER ENNI..BASSA VAH LETTER I",
text! "16AF0..16AF4  ; ID_Continue # Mn   [5] BASSA VAH COMBINING HIGH TONE..BASSA VAH COMBINING HIGH-LOW TONE",
text! "16B00..16B2F  ; ID_Continue # Lo  [48] PAHAWH HMONG VOWEL KEEB..PAHAWH HMONG CONSONANT CAU",
text! "16B30..16B36  ; ID_Continue # Mn   [7] PAHAWH HMONG MARK CIM TUB..PAHAWH HMONG MARK CIM TAUM",
text! "16B40..16B43  ; ID_Continue # Lm   [4] PAHAWH HMONG SIGN VOS SEEV..PAHAWH HMONG SIGN IB YAM",
text! "16B50..16B59  ; ID_Continue # Nd  [10] PAHAWH HMONG DIGIT ZERO..PAHAWH HMONG DIGIT NINE",
text! "16B63..16B77  ; ID_Continue # Lo  [21] PAHAWH HMONG SIGN VOS LUB..PAHAWH HMONG SIGN CIM NRES TOS",
text! "16B7D..16B8F  ; ID_Continue # Lo  [19] PAHAWH HMONG CLAN SIGN TSHEEJ..PAHAWH HMONG CLAN SIGN VWJ",
text! "16D40..16D42  ; ID_Continue # Lm   [3] KIRAT RAI SIGN ANUSVARA..KIRAT RAI SIGN VISARGA",
text! "16D43..16D6A  ; ID_Continue # Lo  [40] KIRAT RAI LETTER A..KIRAT RAI VOWEL SIGN AU",
text! "16D6B..16D6C  ; ID_Continue # Lm   [2] KIRAT RAI SIGN VIRAMA..KIRAT RAI SIGN SAAT",
text! "16D70..16D79  ; ID_Continue # Nd  [10] KIRAT RAI DIGIT ZERO..KIRAT RAI DIGIT NINE",
text! "16E40..16E7F  ; ID_Continue # L&  [64] MEDEFAIDRIN CAPITAL LETTER M..MEDEFAIDRIN SMALL LETTER Y",
text! "16EA0..16EB8  ; ID_Continue # L&  [25] BERIA ERFE CAPITAL LETTER ARKAB..BERIA ERFE CAPITAL LETTER AY",
text! "16EBB..16ED3  ; ID_Continue # L&  [25] BERIA ERFE SMALL LETTER ARKAB..BERIA ERFE SMALL LETTER AY",
text! "16F00..16F4A  ; ID_Continue # Lo  [75] MIAO LETTER PA..MIAO LETTER RTE",
text! "16F4F         ; ID_Continue # Mn       MIAO SIGN CONSONANT MODIFIER BAR",
text! "16F50         ; ID_Continue # Lo       MIAO LETTER NASALIZATION",
text! "16F51..16F87  ; ID_Continue # Mc  [55] MIAO SIGN ASPIRATION..MIAO VOWEL SIGN UI",
text! "16F8F..16F92  ; ID_Continue # Mn   [4] MIAO TONE RIGHT..MIAO TONE BELOW",
text! "16F93..16F9F  ; ID_Continue # Lm  [13] MIAO LETTER TONE-2..MIAO LETTER REFORMED TONE-8",
text! "16FE0..16FE1  ; ID_Continue # Lm   [2] TANGUT ITERATION MARK..NUSHU ITERATION MARK",
text! "16FE3         ; ID_Continue # Lm       OLD CHINESE ITERATION MARK",
text! "16FE4         ; ID_Continue # Mn       KHITAN SMALL SCRIPT FILLER",
text! "16FF0..16FF1  ; ID_Continue # Mc   [2] VIETNAMESE ALTERNATE READING MARK CA..VIETNAMESE ALTERNATE READING MARK NHAY",
text! "16FF2..16FF3  ; ID_Continue # Lm   [2] CHINESE SMALL SIMPLIFIED ER..CHINESE SMALL TRADITIONAL ER",
text! "16FF4..16FF6  ; ID_Continue # Nl   [3] YANGQIN SIGN SLOW ONE BEAT..YANGQIN SIGN SLOW TWO BEATS",
text! "17000..18CD5  ; ID_Continue # Lo [7382] TANGUT IDEOGRAPH-17000..KHITAN SMALL SCRIPT CHARACTER-18CD5",
text! "18CFF..18D1E  ; ID_Continue # Lo  [32] KHITAN SMALL SCRIPT CHARACTER-18CFF..TANGUT IDEOGRAPH-18D1E",
text! "18D80..18DF2  ; ID_Continue # Lo [115] TANGUT COMPONENT-769..TANGUT COMPONENT-883",
text! "1AFF0..1AFF3  ; ID_Continue # Lm   [4] KATAKANA LETTER MINNAN TONE-2..KATAKANA LETTER MINNAN TONE-5",
text! "1AFF5..1AFFB  ; ID_Continue # Lm   [7] KATAKANA LETTER MINNAN TONE-7..KATAKANA LETTER MINNAN NASALIZED TONE-5"]

/-- lines 8321-8384 -/
def derivedCore130 : List Nat := [
text! "1AFFD..1AFFE  ; ID_Continue # Lm   [2] KATAKANA LETTER MINNAN NASALIZED TONE-7..KATAKANA LETTER MINNAN NASALIZED TONE-8",
text! "1B000..1B122  ; ID_Continue # Lo [291] KATAKANA LETTER ARCHAIC E..KATAKANA LETTER ARCHAIC WU",
text! "1B132         ; ID_Continue # Lo       HIRAGANA LETTER SMALL KO",
text! "1B150..1B152  ; ID_Continue # Lo   [3] HIRAGANA LETTER SMALL WI..HIRAGANA LETTER SMALL WO",
text! "1B155         ; ID_Continue # Lo       KATAKANA LETTER SMALL KO",
text! "1B164..1B167  ; ID_Continue # Lo   [4] KATAKANA LETTER SMALL WI..KATAKANA LETTER SMALL N",
text! "1B170..1B2FB  ; ID_Continue # Lo [396] NUSHU CHARACTER-1B170..NUSHU CHARACTER-1B2FB",
text! "1BC00..1BC6A  ; ID_Continue # Lo [107] DUPLOYAN LETTER H..DUPLOYAN LETTER VOCALIC M",
text! "1BC70..1BC7C  ; ID_Continue # Lo  [13] DUPLOYAN AFFIX LEFT HORIZONTAL SECANT..DUPLOYAN AFFIX ATTACHED TANGENT HOOK",
text! "1BC80..1BC88  ; ID_Continue # Lo   [9] DUPLOYAN AFFIX HIGH ACUTE..DUPLOYAN AFFIX HIGH VERTICAL",
text! "1BC90..1BC99  ; ID_Continue # Lo  [10] DUPLOYAN AFFIX LOW ACUTE..DUPLOYAN AFFIX LOW ARROW",
text! "1BC9D..1BC9E  ; ID_Continue # Mn   [2] DUPLOYAN THICK LETTER SELECTOR..DUPLOYAN DOUBLE MARK",
text! "1CCF0..1CCF9  ; ID_Continue # Nd  [10] OUTLINED DIGIT ZERO..OUTLINED DIGIT NINE",
text! "1CF00..1CF2D  ; ID_Continue # Mn  [46] ZNAMENNY COMBINING MARK GORAZDO NIZKO S KRYZHEM ON LEFT..ZNAMENNY COMBINING MARK KRYZH ON LEFT",
text! "1CF30..1CF46  ; ID_Continue # Mn  [23] ZNAMENNY COMBINING TONAL RANGE MARK MRACHNO..ZNAMENNY PRIZNAK MODIFIER ROG",
text! "1D165..1D166  ; ID_Continue # Mc   [2] MUSICAL SYMBOL COMBINING STEM..MUSICAL SYMBOL COMBINING SPRECHGESANG STEM",
text! "1D167..1D169  ; ID_Continue # Mn   [3] MUSICAL SYMBOL COMBINING TREMOLO-1..MUSICAL SYMBOL COMBINING TREMOLO-3",
text! "1D16D..1D172  ; ID_Continue # Mc   [6] MUSICAL SYMBOL COMBINING AUGMENTATION DOT..MUSICAL SYMBOL COMBINING FLAG-5",
text! "1D17B..1D182  ; ID_Continue # Mn   [8] MUSICAL SYMBOL COMBINING ACCENT..MUSICAL SYMBOL COMBINING LOURE",
text! "1D185..1D18B  ; ID_Continue # Mn   [7] MUSICAL SYMBOL COMBINING DOIT..MUSICAL SYMBOL COMBINING TRIPLE TONGUE",
text! "1D1AA..1D1AD  ; ID_Continue # Mn   [4] MUSICAL SYMBOL COMBINING DOWN BOW..MUSICAL SYMBOL COMBINING SNAP PIZZICATO",
text! "1D242..1D244  ; ID_Continue # Mn   [3] COMBINING GREEK MUSICAL TRISEME..COMBINING GREEK MUSICAL PENTASEME",
text! "1D400..1D454  ; ID_Continue # L&  [85] MATHEMATICAL BOLD CAPITAL A..MATHEMATICAL ITALIC SMALL G",
text! "1D456..1D49C  ; ID_Continue # L&  [71] MATHEMATICAL ITALIC SMALL I..MATHEMATICAL SCRIPT CAPITAL A",
text! "1D49E..1D49F  ; ID_Continue # L&   [2] MATHEMATICAL SCRIPT CAPITAL C..MATHEMATICAL SCRIPT CAPITAL D",
text! "1D4A2         ; ID_Continue # L&       MATHEMATICAL SCRIPT CAPITAL G",
text! "1D4A5..1D4A6  ; ID_Continue # L&   [2] MATHEMATICAL SCRIPT CAPITAL J..MATHEMATICAL SCRIPT CAPITAL K",
text! "1D4A9..1D4AC  ; ID_Continue # L&   [4] MATHEMATICAL SCRIPT CAPITAL N..MATHEMATICAL SCRIPT CAPITAL Q",
text! "1D4AE..1D4B9  ; ID_Continue # L&  [12] MATHEMATICAL SCRIPT CAPITAL S..MATHEMATICAL SCRIPT SMALL D",
text! "1D4BB         ; ID_Continue # L&       MATHEMATICAL SCRIPT SMALL F",
text! "1D4BD..1D4C3  ; ID_Continue # L&   [7] MATHEMATICAL SCRIPT SMALL H..MATHEMATICAL SCRIPT SMALL N",
text! "1D4C5..1D505  ; ID_Continue # L&  [65] MATHEMATICAL SCRIPT SMALL P..MATHEMATICAL FRAKTUR CAPITAL B",
text! "1D507..1D50A  ; ID_Continue # L&   [4] MATHEMATICAL FRAKTUR CAPITAL D..MATHEMATICAL FRAKTUR CAPITAL G",
text! "1D50D..1D514  ; ID_Continue # L&   [8] MATHEMATICAL FRAKTUR CAPITAL J..MATHEMATICAL FRAKTUR CAPITAL Q",
text! "1D516..1D51C  ; ID_Continue # L&   [7] MATHEMATICAL FRAKTUR CAPITAL S..MATHEMATICAL FRAKTUR CAPITAL Y",
text! "1D51E..1D539  ; ID_Continue # L&  [28] MATHEMATICAL FRAKTUR SMALL A..MATHEMATICAL DOUBLE-STRUCK CAPITAL B",
text! "1D53B..1D53E  ; ID_Continue # L&   [4] MATHEMATICAL DOUBLE-STRUCK CAPITAL D..MATHEMATICAL DOUBLE-STRUCK CAPITAL G",
text! "1D540..1D544  ; ID_Continue # L&   [5] MATHEMATICAL DOUBLE-STRUCK CAPITAL I..MATHEMATICAL DOUBLE-STRUCK CAPITAL M",
text! "1D546         ; ID_Continue # L&       MATHEMATICAL DOUBLE-STRUCK CAPITAL O",
text! "1D54A..1D550  ; ID_Continue # L&   [7] MATHEMATICAL DOUBLE-STRUCK CAPITAL S..MATHEMATICAL DOUBLE-STRUCK CAPITAL Y",
text! "1D552..1D6A5  ; ID_Continue # L& [340] MATHEMATICAL DOUBLE-STRUCK SMALL A..MATHEMATICAL ITALIC SMALL DOTLESS J",
text! "1D6A8..1D6C0  ; ID_Continue # L&  [25] MATHEMATICAL BOLD CAPITAL ALPHA..MATHEMATICAL BOLD CAPITAL OMEGA",
text! "1D6C2..1D6DA  ; ID_Continue # L&  [25] MATHEMATICAL BOLD SMALL ALPHA..MATHEMATICAL BOLD SMALL OMEGA",
text! "1D6DC..1D6FA  ; ID_Continue # L&  [31] MATHEMATICAL BOLD EPSILON SYMBOL..MATHEMATICAL ITALIC CAPITAL OMEGA",
text! "1D6FC..1D714  ; ID_Continue # L&  [25] MATHEMATICAL ITALIC SMALL ALPHA..MATHEMATICAL ITALIC SMALL OMEGA",
text! "1D716..1D734  ; ID_Continue # L&  [31] MATHEMATICAL ITALIC EPSILON SYMBOL..MATHEMATICAL BOLD ITALIC CAPITAL OMEGA",
text! "1D736..1D74E  ; ID_Continue # L&  [25] MATHEMATICAL BOLD ITALIC SMALL ALPHA..MATHEMATICAL BOLD ITALIC SMALL OMEGA",
text! "1D750..1D76E  ; ID_Continue # L&  [31] MATHEMATICAL BOLD ITALIC EPSILON SYMBOL..MATHEMATICAL SANS-SERIF BOLD CAPITAL OMEGA",
text! "1D770..1D788  ; ID_Continue # L&  [25] MATHEMATICAL SANS-SERIF BOLD SMALL ALPHA..MATHEMATICAL SANS-SERIF BOLD SMALL OMEGA",
text! "1D78A..1D7A8  ; ID_Continue # L&  [31] MATHEMATICAL SANS-SERIF BOLD EPSILON SYMBOL..MATHEMATICAL SANS-SERIF BOLD ITALIC CAPITAL OMEGA",
text! "1D7AA..1D7C2  ; ID_Continue # L&  [25] MATHEMATICAL SANS-SERIF BOLD ITALIC SMALL ALPHA..MATHEMATICAL SANS-SERIF BOLD ITALIC SMALL OMEGA",
text! "1D7C4..1D7CB  ; ID_Continue # L&   [8] MATHEMATICAL SANS-SERIF BOLD ITALIC EPSILON SYMBOL..MATHEMATICAL BOLD SMALL DIGAMMA",
text! "1D7CE..1D7FF  ; ID_Continue # Nd  [50] MATHEMATICAL BOLD DIGIT ZERO..MATHEMATICAL MONOSPACE DIGIT NINE",
text! "1DA00..1DA36  ; ID_Continue # Mn  [55] SIGNWRITING HEAD RIM..SIGNWRITING AIR SUCKING IN",
text! "1DA3B..1DA6C  ; ID_Continue # Mn  [50] SIGNWRITING MOUTH CLOSED NEUTRAL..SIGNWRITING EXCITEMENT",
text! "1DA75         ; ID_Continue # Mn       SIGNWRITING UPPER BODY TILTING FROM HIP JOINTS",
text! "1DA84         ; ID_Continue # Mn       SIGNWRITING LOCATION HEAD NECK",
text! "1DA9B..1DA9F  ; ID_Continue # Mn   [5] SIGNWRITING FILL MODIFIER-2..SIGNWRITING FILL MODIFIER-6",
text! "1DAA1..1DAAF  ; ID_Continue # Mn  [15] SIGNWRITING ROTATION MODIFIER-2..SIGNWRITING ROTATION MODIFIER-16",
text! "1DF00..1DF09  ; ID_Continue # L&  [10] LATIN SMALL LETTER FENG DIGRAPH WITH TRILL..LATIN SMALL LETTER T WITH HOOK AND RETROFLEX HOOK",
text! "1DF0A         ; ID_Continue # Lo       LATIN LETTER RETROFLEX CLICK WITH RETROFLEX HOOK",
text! "1DF0B..1DF1E  ; ID_Continue # L&  [20] LATIN SMALL LETTER ESH WITH DOUBLE BAR..LATIN SMALL LETTER S WITH CURL",
text! "1DF25..1DF2A  ; ID_Continue # L&   [6] LATIN SMALL LETTER D WITH MID-HEIGHT LEFT HOOK..LATIN SMALL LETTER T WITH MID-HEIGHT LEFT HOOK",
text! "1E000..1E006  ; ID_Continue # Mn   [7] COMBINING GLAGOLITIC LETTER AZU..COMBINING GLAGOLITIC LETTER ZHIVETE"]

/-- lines 8385-8448 -/
def derivedCore131 : List Nat := [
text! "1E008..1E018  ; ID_Continue # Mn  [17] COMBINING GLAGOLITIC LETTER ZEMLJA..COMBINING GLAGOLITIC LETTER HERU",
text! "1E01B..1E021  ; ID_Continue # Mn   [7] COMBINING GLAGOLITIC LETTER SHTA..COMBINING GLAGOLITIC LETTER YATI",
text! "1E023..1E024  ; ID_Continue # Mn   [2] COMBINING GLAGOLITIC LETTER YU..COMBINING GLAGOLITIC LETTER SMALL YUS",
text! "1E026..1E02A  ; ID_Continue # Mn   [5] COMBINING GLAGOLITIC LETTER YO..COMBINING GLAGOLITIC LETTER FITA",
text! "1E030..1E06D  ; ID_Continue # Lm  [62] MODIFIER LETTER CYRILLIC SMALL A..MODIFIER LETTER CYRILLIC SMALL STRAIGHT U WITH STROKE",
text! "1E08F         ; ID_Continue # Mn       COMBINING CYRILLIC SMALL LETTER BYELORUSSIAN-UKRAINIAN I",
text! "1E100..1E12C  ; ID_Continue # Lo  [45] NYIAKENG PUACHUE HMONG LETTER MA..NYIAKENG PUACHUE HMONG LETTER W",
text! "1E130..1E136  ; ID_Continue # Mn   [7] NYIAKENG PUACHUE HMONG TONE-B..NYIAKENG PUACHUE HMONG TONE-D",
text! "1E137..1E13D  ; ID_Continue # Lm   [7] NYIAKENG PUACHUE HMONG SIGN FOR PERSON..NYIAKENG PUACHUE HMONG SYLLABLE LENGTHENER",
text! "1E140..1E149  ; ID_Continue # Nd  [10] NYIAKENG PUACHUE HMONG DIGIT ZERO..NYIAKENG PUACHUE HMONG DIGIT NINE",
text! "1E14E         ; ID_Continue # Lo       NYIAKENG PUACHUE HMONG LOGOGRAM NYAJ",
text! "1E290..1E2AD  ; ID_Continue # Lo  [30] TOTO LETTER PA..TOTO LETTER A",
text! "1E2AE         ; ID_Continue # Mn       TOTO SIGN RISING TONE",
text! "1E2C0..1E2EB  ; ID_Continue # Lo  [44] WANCHO LETTER AA..WANCHO LETTER YIH",
text! "1E2EC..1E2EF  ; ID_Continue # Mn   [4] WANCHO TONE TUP..WANCHO TONE KOINI",
text! "1E2F0..1E2F9  ; ID_Continue # Nd  [10] WANCHO DIGIT ZERO..WANCHO DIGIT NINE",
text! "1E4D0..1E4EA  ; ID_Continue # Lo  [27] NAG MUNDARI LETTER O..NAG MUNDARI LETTER ELL",
text! "1E4EB         ; ID_Continue # Lm       NAG MUNDARI SIGN OJOD",
text! "1E4EC..1E4EF  ; ID_Continue # Mn   [4] NAG MUNDARI SIGN MUHOR..NAG MUNDARI SIGN SUTUH",
text! "1E4F0..1E4F9  ; ID_Continue # Nd  [10] NAG MUNDARI DIGIT ZERO..NAG MUNDARI DIGIT NINE",
text! "1E5D0..1E5ED  ; ID_Continue # Lo  [30] OL ONAL LETTER O..OL ONAL LETTER EG",
text! "1E5EE..1E5EF  ; ID_Continue # Mn   [2] OL ONAL SIGN MU..OL ONAL SIGN IKIR",
text! "1E5F0         ; ID_Continue # Lo       OL ONAL SIGN HODDOND",
text! "1E5F1..1E5FA  ; ID_Continue # Nd  [10] OL ONAL DIGIT ZERO..OL ONAL DIGIT NINE",
text! "1E6C0..1E6DE  ; ID_Continue # Lo  [31] TAI YO LETTER LOW KO..TAI YO LETTER HIGH KVO",
text! "1E6E0..1E6E2  ; ID_Continue # Lo   [3] TAI YO LETTER AA..TAI YO LETTER UE",
text! "1E6E3         ; ID_Continue # Mn       TAI YO SIGN UE",
text! "1E6E4..1E6E5  ; ID_Continue # Lo   [2] TAI YO LETTER U..TAI YO LETTER AE",
text! "1E6E6         ; ID_Continue # Mn       TAI YO SIGN AU",
text! "1E6E7..1E6ED  ; ID_Continue # Lo   [7] TAI YO LETTER O..TAI YO LETTER AUE",
text! "1E6EE..1E6EF  ; ID_Continue # Mn   [2] TAI YO SIGN AY..TAI YO SIGN ANG",
text! "1E6F0..1E6F4  ; ID_Continue # Lo   [5] TAI YO LETTER AN..TAI YO LETTER AP",
text! "1E6F5         ; ID_Continue # Mn       TAI YO SIGN OM",
text! "1E6FE         ; ID_Continue # Lo       TAI YO SYMBOL MUEANG",
text! "1E6FF         ; ID_Continue # Lm       TAI YO XAM LAI",
text! "1E7E0..1E7E6  ; ID_Continue # Lo   [7] ETHIOPIC SYLLABLE HHYA..ETHIOPIC SYLLABLE HHYO",
text! "1E7E8..1E7EB  ; ID_Continue # Lo   [4] ETHIOPIC SYLLABLE GURAGE HHWA..ETHIOPIC SYLLABLE HHWE",
text! "1E7ED..1E7EE  ; ID_Continue # Lo   [2] ETHIOPIC SYLLABLE GURAGE MWI..ETHIOPIC SYLLABLE GURAGE MWEE",
text! "1E7F0..1E7FE  ; ID_Continue # Lo  [15] ETHIOPIC SYLLABLE GURAGE QWI..ETHIOPIC SYLLABLE GURAGE PWEE",
text! "1E800..1E8C4  ; ID_Continue # Lo [197] MENDE KIKAKUI SYLLABLE M001 KI..MENDE KIKAKUI SYLLABLE M060 NYON",
text! "1E8D0..1E8D6  ; ID_Continue # Mn   [7] MENDE KIKAKUI COMBINING NUMBER TEENS..MENDE KIKAKUI COMBINING NUMBER MILLIONS",
text! "1E900..1E943  ; ID_Continue # L&  [68] ADLAM CAPITAL LETTER ALIF..ADLAM SMALL LETTER SHA",
text! "1E944..1E94A  ; ID_Continue # Mn   [7] ADLAM ALIF LENGTHENER..ADLAM NUKTA",
text! "1E94B         ; ID_Continue # Lm       ADLAM NASALIZATION MARK",
text! "1E950..1E959  ; ID_Continue # Nd  [10] ADLAM DIGIT ZERO..ADLAM DIGIT NINE",
text! "1EE00..1EE03  ; ID_Continue # Lo   [4] ARABIC MATHEMATICAL ALEF..ARABIC MATHEMATICAL DAL",
text! "1EE05..1EE1F  ; ID_Continue # Lo  [27] ARABIC MATHEMATICAL WAW..ARABIC MATHEMATICAL DOTLESS QAF",
text! "1EE21..1EE22  ; ID_Continue # Lo   [2] ARABIC MATHEMATICAL INITIAL BEH..ARABIC MATHEMATICAL INITIAL JEEM",
text! "1EE24         ; ID_Continue # Lo       ARABIC MATHEMATICAL INITIAL HEH",
text! "1EE27         ; ID_Continue # Lo       ARABIC MATHEMATICAL INITIAL HAH",
text! "1EE29..1EE32  ; ID_Continue # Lo  [10] ARABIC MATHEMATICAL INITIAL YEH..ARABIC MATHEMATICAL INITIAL QAF",
text! "1EE34..1EE37  ; ID_Continue # Lo   [4] ARABIC MATHEMATICAL INITIAL SHEEN..ARABIC MATHEMATICAL INITIAL KHAH",
text! "1EE39         ; ID_Continue # Lo       ARABIC MATHEMATICAL INITIAL DAD",
text! "1EE3B         ; ID_Continue # Lo       ARABIC MATHEMATICAL INITIAL GHAIN",
text! "1EE42         ; ID_Continue # Lo       ARABIC MATHEMATICAL TAILED JEEM",
text! "1EE47         ; ID_Continue # Lo       ARABIC MATHEMATICAL TAILED HAH",
text! "1EE49         ; ID_Continue # Lo       ARABIC MATHEMATICAL TAILED YEH",
text! "1EE4B         ; ID_Continue # Lo       ARABIC MATHEMATICAL TAILED LAM",
text! "1EE4D..1EE4F  ; ID_Continue # Lo   [3] ARABIC MATHEMATICAL TAILED NOON..ARABIC MATHEMATICAL TAILED AIN",
text! "1EE51..1EE52  ; ID_Continue # Lo   [2] ARABIC MATHEMATICAL TAILED SAD..ARABIC MATHEMATICAL TAILED QAF",
text! "1EE54         ; ID_Continue # Lo       ARABIC MATHEMATICAL TAILED SHEEN",
text! "1EE57         ; ID_Continue # Lo       ARABIC MATHEMATICAL TAILED KHAH",
text! "1EE59         ; ID_Continue # Lo       ARABIC MATHEMATICAL TAILED DAD",
text! "1EE5B         ; ID_Continue # Lo       ARABIC MATHEMATICAL TAILED GHAIN"]

/-- lines 8449-8512 -/
def derivedCore132 : List Nat := [
text! "1EE5D         ; ID_Continue # Lo       ARABIC MATHEMATICAL TAILED DOTLESS NOON",
text! "1EE5F         ; ID_Continue # Lo       ARABIC MATHEMATICAL TAILED DOTLESS QAF",
text! "1EE61..1EE62  ; ID_Continue # Lo   [2] ARABIC MATHEMATICAL STRETCHED BEH..ARABIC MATHEMATICAL STRETCHED JEEM",
text! "1EE64         ; ID_Continue # Lo       ARABIC MATHEMATICAL STRETCHED HEH",
text! "1EE67..1EE6A  ; ID_Continue # Lo   [4] ARABIC MATHEMATICAL STRETCHED HAH..ARABIC MATHEMATICAL STRETCHED KAF",
text! "1EE6C..1EE72  ; ID_Continue # Lo   [7] ARABIC MATHEMATICAL STRETCHED MEEM..ARABIC MATHEMATICAL STRETCHED QAF",
text! "1EE74..1EE77  ; ID_Continue # Lo   [4] ARABIC MATHEMATICAL STRETCHED SHEEN..ARABIC MATHEMATICAL STRETCHED KHAH",
text! "1EE79..1EE7C  ; ID_Continue # Lo   [4] ARABIC MATHEMATICAL STRETCHED DAD..ARABIC MATHEMATICAL STRETCHED DOTLESS BEH",
text! "1EE7E         ; ID_Continue # Lo       ARABIC MATHEMATICAL STRETCHED DOTLESS FEH",
text! "1EE80..1EE89  ; ID_Continue # Lo  [10] ARABIC MATHEMATICAL LOOPED ALEF..ARABIC MATHEMATICAL LOOPED YEH",
text! "1EE8B..1EE9B  ; ID_Continue # Lo  [17] ARABIC MATHEMATICAL LOOPED LAM..ARABIC MATHEMATICAL LOOPED GHAIN",
text! "1EEA1..1EEA3  ; ID_Continue # Lo   [3] ARABIC MATHEMATICAL DOUBLE-STRUCK BEH..ARABIC MATHEMATICAL DOUBLE-STRUCK DAL",
text! "1EEA5..1EEA9  ; ID_Continue # Lo   [5] ARABIC MATHEMATICAL DOUBLE-STRUCK WAW..ARABIC MATHEMATICAL DOUBLE-STRUCK YEH",
text! "1EEAB..1EEBB  ; ID_Continue # Lo  [17] ARABIC MATHEMATICAL DOUBLE-STRUCK LAM..ARABIC MATHEMATICAL DOUBLE-STRUCK GHAIN",
text! "1FBF0..1FBF9  ; ID_Continue # Nd  [10] SEGMENTED DIGIT ZERO..SEGMENTED DIGIT NINE",
text! "20000..2A6DF  ; ID_Continue # Lo [42720] CJK UNIFIED IDEOGRAPH-20000..CJK UNIFIED IDEOGRAPH-2A6DF",
text! "2A700..2B81D  ; ID_Continue # Lo [4382] CJK UNIFIED IDEOGRAPH-2A700..CJK UNIFIED IDEOGRAPH-2B81D",
text! "2B820..2CEAD  ; ID_Continue # Lo [5774] CJK UNIFIED IDEOGRAPH-2B820..CJK UNIFIED IDEOGRAPH-2CEAD",
text! "2CEB0..2EBE0  ; ID_Continue # Lo [7473] CJK UNIFIED IDEOGRAPH-2CEB0..CJK UNIFIED IDEOGRAPH-2EBE0",
text! "2EBF0..2EE5D  ; ID_Continue # Lo [622] CJK UNIFIED IDEOGRAPH-2EBF0..CJK UNIFIED IDEOGRAPH-2EE5D",
text! "2F800..2FA1D  ; ID_Continue # Lo [542] CJK COMPATIBILITY IDEOGRAPH-2F800..CJK COMPATIBILITY IDEOGRAPH-2FA1D",
text! "30000..3134A  ; ID_Continue # Lo [4939] CJK UNIFIED IDEOGRAPH-30000..CJK UNIFIED IDEOGRAPH-3134A",
text! "31350..33479  ; ID_Continue # Lo [8490] CJK UNIFIED IDEOGRAPH-31350..CJK UNIFIED IDEOGRAPH-33479",
text! "E0100..E01EF  ; ID_Continue # Mn [240] VARIATION SELECTOR-17..VARIATION SELECTOR-256",
text! "",
text! "# Total code points: 149240",
text! "",
text! "# ================================================",
text! "",
text! "# Derived Property: XID_Start",
text! "#  ID_Start modified for closure under NFKx",
text! "#  Modified as described in UAX #15",
text! "#  NOTE: Does NOT remove the non-NFKx characters.",
text! "#        Merely ensures that if isIdentifer(string) then isIdentifier(NFKx(string))",
text! "#  NOTE: See UAX #31 for more information",
text! "",
text! "0041..005A    ; XID_Start # L&  [26] LATIN CAPITAL LETTER A..LATIN CAPITAL LETTER Z",
text! "0061..007A    ; XID_Start # L&  [26] LATIN SMALL LETTER A..LATIN SMALL LETTER Z",
text! "00AA          ; XID_Start # Lo       FEMININE ORDINAL INDICATOR",
text! "00B5          ; XID_Start # L&       MICRO SIGN",
text! "00BA          ; XID_Start # Lo       MASCULINE ORDINAL INDICATOR",
text! "00C0..00D6    ; XID_Start # L&  [23] LATIN CAPITAL LETTER A WITH GRAVE..LATIN CAPITAL LETTER O WITH DIAERESIS",
text! "00D8..00F6    ; XID_Start # L&  [31] LATIN CAPITAL LETTER O WITH STROKE..LATIN SMALL LETTER O WITH DIAERESIS",
text! "00F8..01BA    ; XID_Start # L& [195] LATIN SMALL LETTER O WITH STROKE..LATIN SMALL LETTER EZH WITH TAIL",
text! "01BB          ; XID_Start # Lo       LATIN LETTER TWO WITH STROKE",
text! "01BC..01BF    ; XID_Start # L&   [4] LATIN CAPITAL LETTER TONE FIVE..LATIN LETTER WYNN",
text! "01C0..01C3    ; XID_Start # Lo   [4] LATIN LETTER DENTAL CLICK..LATIN LETTER RETROFLEX CLICK",
text! "01C4..0293    ; XID_Start # L& [208] LATIN CAPITAL LETTER DZ WITH CARON..LATIN SMALL LETTER EZH WITH CURL",
text! "0294..0295    ; XID_Start # Lo   [2] LATIN LETTER GLOTTAL STOP..LATIN LETTER PHARYNGEAL VOICED FRICATIVE",
text! "0296..02AF    ; XID_Start # L&  [26] LATIN LETTER INVERTED GLOTTAL STOP..LATIN SMALL LETTER TURNED H WITH FISHHOOK AND TAIL",
text! "02B0..02C1    ; XID_Start # Lm  [18] MODIFIER LETTER SMALL H..MODIFIER LETTER REVERSED GLOTTAL STOP",
text! "02C6..02D1    ; XID_Start # Lm  [12] MODIFIER LETTER CIRCUMFLEX ACCENT..MODIFIER LETTER HALF TRIANGULAR COLON",
text! "02E0..02E4    ; XID_Start # Lm   [5] MODIFIER LETTER SMALL GAMMA..MODIFIER LETTER SMALL REVERSED GLOTTAL STOP",
text! "02EC          ; XID_Start # Lm       MODIFIER LETTER VOICING",
text! "02EE          ; XID_Start # Lm       MODIFIER LETTER DOUBLE APOSTROPHE",
text! "0370..0373    ; XID_Start # L&   [4] GREEK CAPITAL LETTER HETA..GREEK SMALL LETTER ARCHAIC SAMPI",
text! "0374          ; XID_Start # Lm       GREEK NUMERAL SIGN",
text! "0376..0377    ; XID_Start # L&   [2] GREEK CAPITAL LETTER PAMPHYLIAN DIGAMMA..GREEK SMALL LETTER PAMPHYLIAN DIGAMMA",
text! "037B..037D    ; XID_Start # L&   [3] GREEK SMALL REVERSED LUNATE SIGMA SYMBOL..GREEK SMALL REVERSED DOTTED LUNATE SIGMA SYMBOL",
text! "037F          ; XID_Start # L&       GREEK CAPITAL LETTER YOT",
text! "0386          ; XID_Start # L&       GREEK CAPITAL LETTER ALPHA WITH TONOS",
text! "0388..038A    ; XID_Start # L&   [3] GREEK CAPITAL LETTER EPSILON WITH TONOS..GREEK CAPITAL LETTER IOTA WITH TONOS",
text! "038C          ; XID_Start # L&       GREEK CAPITAL LETTER OMICRON WITH TONOS",
text! "038E..03A1    ; XID_Start # L&  [20] GREEK CAPITAL LETTER UPSILON WITH TONOS..GREEK CAPITAL LETTER RHO"]

/-- lines 8513-8576 -/
def derivedCore133 : List Nat := [
text! "03A3..03F5    ; XID_Start # L&  [83] GREEK CAPITAL LETTER SIGMA..GREEK LUNATE EPSILON SYMBOL",
text! "03F7..0481    ; XID_Start # L& [139] GREEK CAPITAL LETTER SHO..CYRILLIC SMALL LETTER KOPPA",
text! "048A..052F    ; XID_Start # L& [166] CYRILLIC CAPITAL LETTER SHORT I WITH TAIL..CYRILLIC SMALL LETTER EL WITH DESCENDER",
text! "0531..0556    ; XID_Start # L&  [38] ARMENIAN CAPITAL LETTER AYB..ARMENIAN CAPITAL LETTER FEH",
text! "0559          ; XID_Start # Lm       ARMENIAN MODIFIER LETTER LEFT HALF RING",
text! "0560..0588    ; XID_Start # L&  [41] ARMENIAN SMALL LETTER TURNED AYB..ARMENIAN SMALL LETTER YI WITH STROKE",
text! "05D0..05EA    ; XID_Start # Lo  [27] HEBREW LETTER ALEF..HEBREW LETTER TAV",
text! "05EF..05F2    ; XID_Start # Lo   [4] HEBREW YOD TRIANGLE..HEBREW LIGATURE YIDDISH DOUBLE YOD",
text! "0620..063F    ; XID_Start # Lo  [32] ARABIC LETTER KASHMIRI YEH..ARABIC LETTER FARSI YEH WITH THREE DOTS ABOVE",
text! "0640          ; XID_Start # Lm       ARABIC TATWEEL",
text! "0641..064A    ; XID_Start # Lo  [10] ARABIC LETTER FEH..ARABIC LETTER YEH",
text! "066E..066F    ; XID_Start # Lo   [2] ARABIC LETTER DOTLESS BEH..ARABIC LETTER DOTLESS QAF",
text! "0671..06D3    ; XID_Start # Lo  [99] ARABIC LETTER ALEF WASLA..ARABIC LETTER YEH BARREE WITH HAMZA ABOVE",
text! "06D5          ; XID_Start # Lo       ARABIC LETTER AE",
text! "06E5..06E6    ; XID_Start # Lm   [2] ARABIC SMALL WAW..ARABIC SMALL YEH",
text! "06EE..06EF    ; XID_Start # Lo   [2] ARABIC LETTER DAL WITH INVERTED V..ARABIC LETTER REH WITH INVERTED V",
text! "06FA..06FC    ; XID_Start # Lo   [3] ARABIC LETTER SHEEN WITH DOT BELOW..ARABIC LETTER GHAIN WITH DOT BELOW",
text! "06FF          ; XID_Start # Lo       ARABIC LETTER HEH WITH INVERTED V",
text! "0710          ; XID_Start # Lo       SYRIAC LETTER ALAPH",
text! "0712..072F    ; XID_Start # Lo  [30] SYRIAC LETTER BETH..SYRIAC LETTER PERSIAN DHALATH",
text! "074D..07A5    ; XID_Start # Lo  [89] SYRIAC LETTER SOGDIAN ZHAIN..THAANA LETTER WAAVU",
text! "07B1          ; XID_Start # Lo       THAANA LETTER NAA",
text! "07CA..07EA    ; XID_Start # Lo  [33] NKO LETTER A..NKO LETTER JONA RA",
text! "07F4..07F5    ; XID_Start # Lm   [2] NKO HIGH TONE APOSTROPHE..NKO LOW TONE APOSTROPHE",
text! "07FA          ; XID_Start # Lm       NKO LAJANYALAN",
text! "0800..0815    ; XID_Start # Lo  [22] SAMARITAN LETTER ALAF..SAMARITAN LETTER TAAF",
text! "081A          ; XID_Start # Lm       SAMARITAN MODIFIER LETTER EPENTHETIC YUT",
text! "0824          ; XID_Start # Lm       SAMARITAN MODIFIER LETTER SHORT A",
text! "0828          ; XID_Start # Lm       SAMARITAN MODIFIER LETTER I",
text! "0840..0858    ; XID_Start # Lo  [25] MANDAIC LETTER HALQA..MANDAIC LETTER AIN",
text! "0860..086A    ; XID_Start # Lo  [11] SYRIAC LETTER MALAYALAM NGA..SYRIAC LETTER MALAYALAM SSA",
text! "0870..0887    ; XID_Start # Lo  [24] ARABIC LETTER ALEF WITH ATTACHED FATHA..ARABIC BASELINE ROUND DOT",
text! "0889..088F    ; XID_Start # Lo   [7] ARABIC LETTER NOON WITH INVERTED SMALL V..ARABIC LETTER NOON WITH RING ABOVE",
text! "08A0..08C8    ; XID_Start # Lo  [41] ARABIC LETTER BEH WITH SMALL V BELOW..ARABIC LETTER GRAF",
text! "08C9          ; XID_Start # Lm       ARABIC SMALL FARSI YEH",
text! "0904..0939    ; XID_Start # Lo  [54] DEVANAGARI LETTER SHORT A..DEVANAGARI LETTER HA",
text! "093D          ; XID_Start # Lo       DEVANAGARI SIGN AVAGRAHA",
text! "0950          ; XID_Start # Lo       DEVANAGARI OM",
text! "0958..0961    ; XID_Start # Lo  [10] DEVANAGARI LETTER QA..DEVANAGARI LETTER VOCALIC LL",
text! "0971          ; XID_Start # Lm       DEVANAGARI SIGN HIGH SPACING DOT",
text! "0972..0980    ; XID_Start # Lo  [15] DEVANAGARI LETTER CANDRA A..BENGALI ANJI",
text! "0985..098C    ; XID_Start # Lo   [8] BENGALI LETTER A..BENGALI LETTER VOCALIC L",
text! "098F..0990    ; XID_Start # Lo   [2] BENGALI LETTER E..BENGALI LETTER AI",
text! "0993..09A8    ; XID_Start # Lo  [22] BENGALI LETTER O..BENGALI LETTER NA",
text! "09AA..09B0    ; XID_Start # Lo   [7] BENGALI LETTER PA..BENGALI LETTER RA",
text! "09B2          ; XID_Start # Lo       BENGALI LETTER LA",
text! "09B6..09B9    ; XID_Start # Lo   [4] BENGALI LETTER SHA..BENGALI LETTER HA",
text! "09BD          ; XID_Start # Lo       BENGALI SIGN AVAGRAHA",
text! "09CE          ; XID_Start # Lo       BENGALI LETTER KHANDA TA",
text! "09DC..09DD    ; XID_Start # Lo   [2] BENGALI LETTER RRA..BENGALI LETTER RHA",
text! "09DF..09E1    ; XID_Start # Lo   [3] BENGALI LETTER YYA..BENGALI LETTER VOCALIC LL",
text! "09F0..09F1    ; XID_Start # Lo   [2] BENGALI LETTER RA WITH MIDDLE DIAGONAL..BENGALI LETTER RA WITH LOWER DIAGONAL",
text! "09FC          ; XID_Start # Lo       BENGALI LETTER VEDIC ANUSVARA",
text! "0A05..0A0A    ; XID_Start # Lo   [6] GURMUKHI LETTER A..GURMUKHI LETTER UU",
text! "0A0F..0A10    ; XID_Start # Lo   [2] GURMUKHI LETTER EE..GURMUKHI LETTER AI",
text! "0A13..0A28    ; XID_Start # Lo  [22] GURMUKHI LETTER OO..GURMUKHI LETTER NA",
text! "0A2A..0A30    ; XID_Start # Lo   [7] GURMUKHI LETTER PA..GURMUKHI LETTER RA",
text! "0A32..0A33    ; XID_Start # Lo   [2] GURMUKHI LETTER LA..GURMUKHI LETTER LLA",
text! "0A35..0A36    ; XID_Start # Lo   [2] GURMUKHI LETTER VA..GURMUKHI LETTER SHA",
text! "0A38..0A39    ; XID_Start # Lo   [2] GURMUKHI LETTER SA..GURMUKHI LETTER HA",
text! "0A59..0A5C    ; XID_Start # Lo   [4] GURMUKHI LETTER KHHA..GURMUKHI LETTER RRA",
text! "0A5E          ; XID_Start # Lo       GURMUKHI LETTER FA",
text! "0A72..0A74    ; XID_Start # Lo   [3] GURMUKHI IRI..GURMUKHI EK ONKAR",
text! "0A85..0A8D    ; XID_Start # Lo   [9] GUJARATI LETTER A..GUJARATI VOWEL CANDRA E"]

/-- lines 8577-8640 -/
def derivedCore134 : List Nat := [
text! "0A8F..0A91    ; XID_Start # Lo   [3] GUJARATI LETTER E..GUJARATI VOWEL CANDRA O",
text! "0A93..0AA8    ; XID_Start # Lo  [22] GUJARATI LETTER O..GUJARATI LETTER NA",
text! "0AAA..0AB0    ; XID_Start # Lo   [7] GUJARATI LETTER PA..GUJARATI LETTER RA",
text! "0AB2..0AB3    ; XID_Start # Lo   [2] GUJARATI LETTER LA..GUJARATI LETTER LLA",
text! "0AB5..0AB9    ; XID_Start # Lo   [5] GUJARATI LETTER VA..GUJARATI LETTER HA",
text! "0ABD          ; XID_Start # Lo       GUJARATI SIGN AVAGRAHA",
text! "0AD0          ; XID_Start # Lo       GUJARATI OM",
text! "0AE0..0AE1    ; XID_Start # Lo   [2] GUJARATI LETTER VOCALIC RR..GUJARATI LETTER VOCALIC LL",
text! "0AF9          ; XID_Start # Lo       GUJARATI LETTER ZHA",
text! "0B05..0B0C    ; XID_Start # Lo   [8] ORIYA LETTER A..ORIYA LETTER VOCALIC L",
text! "0B0F..0B10    ; XID_Start # Lo   [2] ORIYA LETTER E..ORIYA LETTER AI",
text! "0B13..0B28    ; XID_Start # Lo  [22] ORIYA LETTER O..ORIYA LETTER NA",
text! "0B2A..0B30    ; XID_Start # Lo   [7] ORIYA LETTER PA..ORIYA LETTER RA",
text! "0B32..0B33    ; XID_Start # Lo   [2] ORIYA LETTER LA..ORIYA LETTER LLA",
text! "0B35..0B39    ; XID_Start # Lo   [5] ORIYA LETTER VA..ORIYA LETTER HA",
text! "0B3D          ; XID_Start # Lo       ORIYA SIGN AVAGRAHA",
text! "0B5C..0B5D    ; XID_Start # Lo   [2] ORIYA LETTER RRA..ORIYA LETTER RHA",
text! "0B5F..0B61    ; XID_Start # Lo   [3] ORIYA LETTER YYA..ORIYA LETTER VOCALIC LL",
text! "0B71          ; XID_Start # Lo       ORIYA LETTER WA",
text! "0B83          ; XID_Start # Lo       TAMIL SIGN VISARGA",
text! "0B85..0B8A    ; XID_Start # Lo   [6] TAMIL LETTER A..TAMIL LETTER UU",
text! "0B8E..0B90    ; XID_Start # Lo   [3] TAMIL LETTER E..TAMIL LETTER AI",
text! "0B92..0B95    ; XID_Start # Lo   [4] TAMIL LETTER O..TAMIL LETTER KA",
text! "0B99..0B9A    ; XID_Start # Lo   [2] TAMIL LETTER NGA..TAMIL LETTER CA",
text! "0B9C          ; XID_Start # Lo       TAMIL LETTER JA",
text! "0B9E..0B9F    ; XID_Start # Lo   [2] TAMIL LETTER NYA..TAMIL LETTER TTA",
text! "0BA3..0BA4    ; XID_Start # Lo   [2] TAMIL LETTER NNA..TAMIL LETTER TA",
text! "0BA8..0BAA    ; XID_Start # Lo   [3] TAMIL LETTER NA..TAMIL LETTER PA",
text! "0BAE..0BB9    ; XID_Start # Lo  [12] TAMIL LETTER MA..TAMIL LETTER HA",
text! "0BD0          ; XID_Start # Lo       TAMIL OM",
text! "0C05..0C0C    ; XID_Start # Lo   [8] TELUGU LETTER A..TELUGU LETTER VOCALIC L",
text! "0C0E..0C10    ; XID_Start # Lo   [3] TELUGU LETTER E..TELUGU LETTER AI",
text! "0C12..0C28    ; XID_Start # Lo  [23] TELUGU LETTER O..TELUGU LETTER NA",
text! "0C2A..0C39    ; XID_Start # Lo  [16] TELUGU LETTER PA..TELUGU LETTER HA",
text! "0C3D          ; XID_Start # Lo       TELUGU SIGN AVAGRAHA",
text! "0C58..0C5A    ; XID_Start # Lo   [3] TELUGU LETTER TSA..TELUGU LETTER RRRA",
text! "0C5C..0C5D    ; XID_Start # Lo   [2] TELUGU ARCHAIC SHRII..TELUGU LETTER NAKAARA POLLU",
text! "0C60..0C61    ; XID_Start # Lo   [2] TELUGU LETTER VOCALIC RR..TELUGU LETTER VOCALIC LL",
text! "0C80          ; XID_Start # Lo       KANNADA SIGN SPACING CANDRABINDU",
text! "0C85..0C8C    ; XID_Start # Lo   [8] KANNADA LETTER A..KANNADA LETTER VOCALIC L",
text! "0C8E..0C90    ; XID_Start # Lo   [3] KANNADA LETTER E..KANNADA LETTER AI",
text! "0C92..0CA8    ; XID_Start # Lo  [23] KANNADA LETTER O..KANNADA LETTER NA",
text! "0CAA..0CB3    ; XID_Start # Lo  [10] KANNADA LETTER PA..KANNADA LETTER LLA",
text! "0CB5..0CB9    ; XID_Start # Lo   [5] KANNADA LETTER VA..KANNADA LETTER HA",
text! "0CBD          ; XID_Start # Lo       KANNADA SIGN AVAGRAHA",
text! "0CDC..0CDE    ; XID_Start # Lo   [3] KANNADA ARCHAIC SHRII..KANNADA LETTER FA",
text! "0CE0..0CE1    ; XID_Start # Lo   [2] KANNADA LETTER VOCALIC RR..KANNADA LETTER VOCALIC LL",
text! "0CF1..0CF2    ; XID_Start # Lo   [2] KANNADA SIGN JIHVAMULIYA..KANNADA SIGN UPADHMANIYA",
text! "0D04..0D0C    ; XID_Start # Lo   [9] MALAYALAM LETTER VEDIC ANUSVARA..MALAYALAM LETTER VOCALIC L",
text! "0D0E..0D10    ; XID_Start # Lo   [3] MALAYALAM LETTER E..MALAYALAM LETTER AI",
text! "0D12..0D3A    ; XID_Start # Lo  [41] MALAYALAM LETTER O..MALAYALAM LETTER TTTA",
text! "0D3D          ; XID_Start # Lo       MALAYALAM SIGN AVAGRAHA",
text! "0D4E          ; XID_Start # Lo       MALAYALAM LETTER DOT REPH",
text! "0D54..0D56    ; XID_Start # Lo   [3] MALAYALAM LETTER CHILLU M..MALAYALAM LETTER CHILLU LLL",
text! "0D5F..0D61    ; XID_Start # Lo   [3] MALAYALAM LETTER ARCHAIC II..MALAYALAM LETTER VOCALIC LL",
text! "0D7A..0D7F    ; XID_Start # Lo   [6] MALAYALAM LETTER CHILLU NN..MALAYALAM LETTER CHILLU K",
text! "0D85..0D96    ; XID_Start # Lo  [18] SINHALA LETTER AYANNA..SINHALA LETTER AUYANNA",
text! "0D9A..0DB1    ; XID_Start # Lo  [24] SINHALA LETTER ALPAPRAANA KAYANNA..SINHALA LETTER DANTAJA NAYANNA",
text! "0DB3..0DBB    ; XID_Start # Lo   [9] SINHALA LETTER SANYAKA DAYANNA..SINHALA LETTER RAYANNA",
text! "0DBD          ; XID_Start # Lo       SINHALA LETTER DANTAJA LAYANNA",
text! "0DC0..0DC6    ; XID_Start # Lo   [7] SINHALA LETTER VAYANNA..SINHALA LETTER FAYANNA",
text! "0E01..0E30    ; XID_Start # Lo  [48] THAI CHARACTER KO KAI..THAI CHARACTER SARA A",
text! "0E32          ; XID_Start # Lo       THAI CHARACTER SARA AA",
text! "0E40..0E45    ; XID_Start # Lo   [6] THAI CHARACTER SARA E..THAI CHARACTER LAKKHANGYAO"]

/-- lines 8641-8704 -/
def derivedCore135 : List Nat := [
text! "0E46          ; XID_Start # Lm       THAI CHARACTER MAIYAMOK",
text! "0E81..0E82    ; XID_Start # Lo   [2] LAO LETTER KO..LAO LETTER KHO SUNG",
text! "0E84          ; XID_Start # Lo       LAO LETTER KHO TAM",
text! "0E86..0E8A    ; XID_Start # Lo   [5] LAO LETTER PALI GHA..LAO LETTER SO TAM",
text! "0E8C..0EA3    ; XID_Start # Lo  [24] LAO LETTER PALI JHA..LAO LETTER LO LING",
text! "0EA5          ; XID_Start # Lo       LAO LETTER LO LOOT",
text! "0EA7..0EB0    ; XID_Start # Lo  [10] LAO LETTER WO..LAO VOWEL SIGN A",
text! "0EB2          ; XID_Start # Lo       LAO VOWEL SIGN AA",
text! "0EBD          ; XID_Start # Lo       LAO SEMIVOWEL SIGN NYO",
text! "0EC0..0EC4    ; XID_Start # Lo   [5] LAO VOWEL SIGN E..LAO VOWEL SIGN AI",
text! "0EC6          ; XID_Start # Lm       LAO KO LA",
text! "0EDC..0EDF    ; XID_Start # Lo   [4] LAO HO NO..LAO LETTER KHMU NYO",
text! "0F00          ; XID_Start # Lo       TIBETAN SYLLABLE OM",
text! "0F40..0F47    ; XID_Start # Lo   [8] TIBETAN LETTER KA..TIBETAN LETTER JA",
text! "0F49..0F6C    ; XID_Start # Lo  [36] TIBETAN LETTER NYA..TIBETAN LETTER RRA",
text! "0F88..0F8C    ; XID_Start # Lo   [5] TIBETAN SIGN LCE TSA CAN..TIBETAN SIGN INVERTED MCHU CAN",
text! "1000..102A    ; XID_Start # Lo  [43] MYANMAR LETTER KA..MYANMAR LETTER AU",
text! "103F          ; XID_Start # Lo       MYANMAR LETTER GREAT SA",
text! "1050..1055    ; XID_Start # Lo   [6] MYANMAR LETTER SHA..MYANMAR LETTER VOCALIC LL",
text! "105A..105D    ; XID_Start # Lo   [4] MYANMAR LETTER MON NGA..MYANMAR LETTER MON BBE",
text! "1061          ; XID_Start # Lo       MYANMAR LETTER SGAW KAREN SHA",
text! "1065..1066    ; XID_Start # Lo   [2] MYANMAR LETTER WESTERN PWO KAREN THA..MYANMAR LETTER WESTERN PWO KAREN PWA",
text! "106E..1070    ; XID_Start # Lo   [3] MYANMAR LETTER EASTERN PWO KAREN NNA..MYANMAR LETTER EASTERN PWO KAREN GHWA",
text! "1075..1081    ; XID_Start # Lo  [13] MYANMAR LETTER SHAN KA..MYANMAR LETTER SHAN HA",
text! "108E          ; XID_Start # Lo       MYANMAR LETTER RUMAI PALAUNG FA",
text! "10A0..10C5    ; XID_Start # L&  [38] GEORGIAN CAPITAL LETTER AN..GEORGIAN CAPITAL LETTER HOE",
text! "10C7          ; XID_Start # L&       GEORGIAN CAPITAL LETTER YN",
text! "10CD          ; XID_Start # L&       GEORGIAN CAPITAL LETTER AEN",
text! "10D0..10FA    ; XID_Start # L&  [43] GEORGIAN LETTER AN..GEORGIAN LETTER AIN",
text! "10FC          ; XID_Start # Lm       MODIFIER LETTER GEORGIAN NAR",
text! "10FD..10FF    ; XID_Start # L&   [3] GEORGIAN LETTER AEN..GEORGIAN LETTER LABIAL SIGN",
text! "1100..1248    ; XID_Start # Lo [329] HANGUL CHOSEONG KIYEOK..ETHIOPIC SYLLABLE QWA",
text! "124A..124D    ; XID_Start # Lo   [4] ETHIOPIC SYLLABLE QWI..ETHIOPIC SYLLABLE QWE",
text! "1250..1256    ; XID_Start # Lo   [7] ETHIOPIC SYLLABLE QHA..ETHIOPIC SYLLABLE QHO",
text! "1258          ; XID_Start # Lo       ETHIOPIC SYLLABLE QHWA",
text! "125A..125D    ; XID_Start # Lo   [4] ETHIOPIC SYLLABLE QHWI..ETHIOPIC SYLLABLE QHWE",
text! "1260..1288    ; XID_Start # Lo  [41] ETHIOPIC SYLLABLE BA..ETHIOPIC SYLLABLE XWA",
text! "128A..128D    ; XID_Start # Lo   [4] ETHIOPIC SYLLABLE XWI..ETHIOPIC SYLLABLE XWE",
text! "1290..12B0    ; XID_Start # Lo  [33] ETHIOPIC SYLLABLE NA..ETHIOPIC SYLLABLE KWA",
text! "12B2..12B5    ; XID_Start # Lo   [4] ETHIOPIC SYLLABLE KWI..ETHIOPIC SYLLABLE KWE",
text! "12B8..12BE    ; XID_Start # Lo   [7] ETHIOPIC SYLLABLE KXA..ETHIOPIC SYLLABLE KXO",
text! "12C0          ; XID_Start # Lo       ETHIOPIC SYLLABLE KXWA",
text! "12C2..12C5    ; XID_Start # Lo   [4] ETHIOPIC SYLLABLE KXWI..ETHIOPIC SYLLABLE KXWE",
text! "12C8..12D6    ; XID_Start # Lo  [15] ETHIOPIC SYLLABLE WA..ETHIOPIC SYLLABLE PHARYNGEAL O",
text! "12D8..1310    ; XID_Start # Lo  [57] ETHIOPIC SYLLABLE ZA..ETHIOPIC SYLLABLE GWA",
text! "1312..1315    ; XID_Start # Lo   [4] ETHIOPIC SYLLABLE GWI..ETHIOPIC SYLLABLE GWE",
text! "1318..135A    ; XID_Start # Lo  [67] ETHIOPIC SYLLABLE GGA..ETHIOPIC SYLLABLE FYA",
text! "1380..138F    ; XID_Start # Lo  [16] ETHIOPIC SYLLABLE SEBATBEIT MWA..ETHIOPIC SYLLABLE PWE",
text! "13A0..13F5    ; XID_Start # L&  [86] CHEROKEE LETTER A..CHEROKEE LETTER MV",
text! "13F8..13FD    ; XID_Start # L&   [6] CHEROKEE SMALL LETTER YE..CHEROKEE SMALL LETTER MV",
text! "1401..166C    ; XID_Start # Lo [620] CANADIAN SYLLABICS E..CANADIAN SYLLABICS CARRIER TTSA",
text! "166F..167F    ; XID_Start # Lo  [17] CANADIAN SYLLABICS QAI..CANADIAN SYLLABICS BLACKFOOT W",
text! "1681..169A    ; XID_Start # Lo  [26] OGHAM LETTER BEITH..OGHAM LETTER PEITH",
text! "16A0..16EA    ; XID_Start # Lo  [75] RUNIC LETTER FEHU FEOH FE F..RUNIC LETTER X",
text! "16EE..16F0    ; XID_Start # Nl   [3] RUNIC ARLAUG SYMBOL..RUNIC BELGTHOR SYMBOL",
text! "16F1..16F8    ; XID_Start # Lo   [8] RUNIC LETTER K..RUNIC LETTER FRANKS CASKET AESC",
text! "1700..1711    ; XID_Start # Lo  [18] TAGALOG LETTER A..TAGALOG LETTER HA",
text! "171F..1731    ; XID_Start # Lo  [19] TAGALOG LETTER ARCHAIC RA..HANUNOO LETTER HA",
text! "1740..1751    ; XID_Start # Lo  [18] BUHID LETTER A..BUHID LETTER HA",
text! "1760..176C    ; XID_Start # Lo  [13] TAGBANWA LETTER A..TAGBANWA LETTER YA",
text! "176E..1770    ; XID_Start # Lo   [3] TAGBANWA LETTER LA..TAGBANWA LETTER SA",
text! "1780..17B3    ; XID_Start # Lo  [52] KHMER LETTER KA..KHMER INDEPENDENT VOWEL QAU",
text! "17D7          ; XID_Start # Lm       KHMER SIGN LEK TOO",
text! "17DC          ; XID_Start # Lo       KHMER SIGN AVAKRAHASANYA"]

/-- lines 8705-8768 -/
def derivedCore136 : List Nat := [
text! "1820..1842    ; XID_Start # Lo  [35] MONGOLIAN LETTER A..MONGOLIAN LETTER CHI",
text! "1843          ; XID_Start # Lm       MONGOLIAN LETTER TODO LONG VOWEL SIGN",
text! "1844..1878    ; XID_Start # Lo  [53] MONGOLIAN LETTER TODO E..MONGOLIAN LETTER CHA WITH TWO DOTS",
text! "1880..1884    ; XID_Start # Lo   [5] MONGOLIAN LETTER ALI GALI ANUSVARA ONE..MONGOLIAN LETTER ALI GALI INVERTED UBADAMA",
text! "1885..1886    ; XID_Start # Mn   [2] MONGOLIAN LETTER ALI GALI BALUDA..MONGOLIAN LETTER ALI GALI THREE BALUDA",
text! "1887..18A8    ; XID_Start # Lo  [34] MONGOLIAN LETTER ALI GALI A..MONGOLIAN LETTER MANCHU ALI GALI BHA",
text! "18AA          ; XID_Start # Lo       MONGOLIAN LETTER MANCHU ALI GALI LHA",
text! "18B0..18F5    ; XID_Start # Lo  [70] CANADIAN SYLLABICS OY..CANADIAN SYLLABICS CARRIER DENTAL S",
text! "1900..191E    ; XID_Start # Lo  [31] LIMBU VOWEL-CARRIER LETTER..LIMBU LETTER TRA",
text! "1950..196D    ; XID_Start # Lo  [30] TAI LE LETTER KA..TAI LE LETTER AI",
text! "1970..1974    ; XID_Start # Lo   [5] TAI LE LETTER TONE-2..TAI LE LETTER TONE-6",
text! "1980..19AB    ; XID_Start # Lo  [44] NEW TAI LUE LETTER HIGH QA..NEW TAI LUE LETTER LOW SUA",
text! "19B0..19C9    ; XID_Start # Lo  [26] NEW TAI LUE VOWEL SIGN VOWEL SHORTENER..NEW TAI LUE TONE MARK-2",
text! "1A00..1A16    ; XID_Start # Lo  [23] BUGINESE LETTER KA..BUGINESE LETTER HA",
text! "1A20..1A54    ; XID_Start # Lo  [53] TAI THAM LETTER HIGH KA..TAI THAM LETTER GREAT SA",
text! "1AA7          ; XID_Start # Lm       TAI THAM SIGN MAI YAMOK",
text! "1B05..1B33    ; XID_Start # Lo  [47] BALINESE LETTER AKARA..BALINESE LETTER HA",
text! "1B45..1B4C    ; XID_Start # Lo   [8] BALINESE LETTER KAF SASAK..BALINESE LETTER ARCHAIC JNYA",
text! "1B83..1BA0    ; XID_Start # Lo  [30] SUNDANESE LETTER A..SUNDANESE LETTER HA",
text! "1BAE..1BAF    ; XID_Start # Lo   [2] SUNDANESE LETTER KHA..SUNDANESE LETTER SYA",
text! "1BBA..1BE5    ; XID_Start # Lo  [44] SUNDANESE AVAGRAHA..BATAK LETTER U",
text! "1C00..1C23    ; XID_Start # Lo  [36] LEPCHA LETTER KA..LEPCHA LETTER A",
text! "1C4D..1C4F    ; XID_Start # Lo   [3] LEPCHA LETTER TTA..LEPCHA LETTER DDA",
text! "1C5A..1C77    ; XID_Start # Lo  [30] OL CHIKI LETTER LA..OL CHIKI LETTER OH",
text! "1C78..1C7D    ; XID_Start # Lm   [6] OL CHIKI MU TTUDDAG..OL CHIKI AHAD",
text! "1C80..1C8A    ; XID_Start # L&  [11] CYRILLIC SMALL LETTER ROUNDED VE..CYRILLIC SMALL LETTER TJE",
text! "1C90..1CBA    ; XID_Start # L&  [43] GEORGIAN MTAVRULI CAPITAL LETTER AN..GEORGIAN MTAVRULI CAPITAL LETTER AIN",
text! "1CBD..1CBF    ; XID_Start # L&   [3] GEORGIAN MTAVRULI CAPITAL LETTER AEN..GEORGIAN MTAVRULI CAPITAL LETTER LABIAL SIGN",
text! "1CE9..1CEC    ; XID_Start # Lo   [4] VEDIC SIGN ANUSVARA ANTARGOMUKHA..VEDIC SIGN ANUSVARA VAMAGOMUKHA WITH TAIL",
text! "1CEE..1CF3    ; XID_Start # Lo   [6] VEDIC SIGN HEXIFORM LONG ANUSVARA..VEDIC SIGN ROTATED ARDHAVISARGA",
text! "1CF5..1CF6    ; XID_Start # Lo   [2] VEDIC SIGN JIHVAMULIYA..VEDIC SIGN UPADHMANIYA",
text! "1CFA          ; XID_Start # Lo       VEDIC SIGN DOUBLE ANUSVARA ANTARGOMUKHA",
text! "1D00..1D2B    ; XID_Start # L&  [44] LATIN LETTER SMALL CAPITAL A..CYRILLIC LETTER SMALL CAPITAL EL",
text! "1D2C..1D6A    ; XID_Start # Lm  [63] MODIFIER LETTER CAPITAL A..GREEK SUBSCRIPT SMALL LETTER CHI",
text! "1D6B..1D77    ; XID_Start # L&  [13] LATIN SMALL LETTER UE..LATIN SMALL LETTER TURNED G",
text! "1D78          ; XID_Start # Lm       MODIFIER LETTER CYRILLIC EN",
text! "1D79..1D9A    ; XID_Start # L&  [34] LATIN SMALL LETTER INSULAR G..LATIN SMALL LETTER EZH WITH RETROFLEX HOOK",
text! "1D9B..1DBF    ; XID_Start # Lm  [37] MODIFIER LETTER SMALL TURNED ALPHA..MODIFIER LETTER SMALL THETA",
text! "1E00..1F15    ; XID_Start # L& [278] LATIN CAPITAL LETTER A WITH RING BELOW..GREEK SMALL LETTER EPSILON WITH DASIA AND OXIA",
text! "1F18..1F1D    ; XID_Start # L&   [6] GREEK CAPITAL LETTER EPSILON WITH PSILI..GREEK CAPITAL LETTER EPSILON WITH DASIA AND OXIA",
text! "1F20..1F45    ; XID_Start # L&  [38] GREEK SMALL LETTER ETA WITH PSILI..GREEK SMALL LETTER OMICRON WITH DASIA AND OXIA",
text! "1F48..1F4D    ; XID_Start # L&   [6] GREEK CAPITAL LETTER OMICRON WITH PSILI..GREEK CAPITAL LETTER OMICRON WITH DASIA AND OXIA",
text! "1F50..1F57    ; XID_Start # L&   [8] GREEK SMALL LETTER UPSILON WITH PSILI..GREEK SMALL LETTER UPSILON WITH DASIA AND PERISPOMENI",
text! "1F59          ; XID_Start # L&       GREEK CAPITAL LETTER UPSILON WITH DASIA",
text! "1F5B          ; XID_Start # L&       GREEK CAPITAL LETTER UPSILON WITH DASIA AND VARIA",
text! "1F5D          ; XID_Start # L&       GREEK CAPITAL LETTER UPSILON WITH DASIA AND OXIA",
text! "1F5F..1F7D    ; XID_Start # L&  [31] GREEK CAPITAL LETTER UPSILON WITH DASIA AND PERISPOMENI..GREEK SMALL LETTER OMEGA WITH OXIA",
text! "1F80..1FB4    ; XID_Start # L&  [53] GREEK SMALL LETTER ALPHA WITH PSILI AND YPOGEGRAMMENI..GREEK SMALL LETTER ALPHA WITH OXIA AND YPOGEGRAMMENI",
text! "1FB6..1FBC    ; XID_Start # L&   [7] GREEK SMALL LETTER ALPHA WITH PERISPOMENI..GREEK CAPITAL LETTER ALPHA WITH PROSGEGRAMMENI",
text! "1FBE          ; XID_Start # L&       GREEK PROSGEGRAMMENI",
text! "1FC2..1FC4    ; XID_Start # L&   [3] GREEK SMALL LETTER ETA WITH VARIA AND YPOGEGRAMMENI..GREEK SMALL LETTER ETA WITH OXIA AND YPOGEGRAMMENI",
text! "1FC6..1FCC    ; XID_Start # L&   [7] GREEK SMALL LETTER ETA WITH PERISPOMENI..GREEK CAPITAL LETTER ETA WITH PROSGEGRAMMENI",
text! "1FD0..1FD3    ; XID_Start # L&   [4] GREEK SMALL LETTER IOTA WITH VRACHY..GREEK SMALL LETTER IOTA WITH DIALYTIKA AND OXIA",
text! "1FD6..1FDB    ; XID_Start # L&   [6] GREEK SMALL LETTER IOTA WITH PERISPOMENI..GREEK CAPITAL LETTER IOTA WITH OXIA",
text! "1FE0..1FEC    ; XID_Start # L&  [13] GREEK SMALL LETTER UPSILON WITH VRACHY..GREEK CAPITAL LETTER RHO WITH DASIA",
text! "1FF2..1FF4    ; XID_Start # L&   [3] GREEK SMALL LETTER OMEGA WITH VARIA AND YPOGEGRAMMENI..GREEK SMALL LETTER OMEGA WITH OXIA AND YPOGEGRAMMENI",
text! "1FF6..1FFC    ; XID_Start # L&   [7] GREEK SMALL LETTER OMEGA WITH PERISPOMENI..GREEK CAPITAL LETTER OMEGA WITH PROSGEGRAMMENI",
text! "2071          ; XID_Start # Lm       SUPERSCRIPT LATIN SMALL LETTER I",
text! "207F          ; XID_Start # Lm       SUPERSCRIPT LATIN SMALL LETTER N",
text! "2090..209C    ; XID_Start # Lm  [13] LATIN SUBSCRIPT SMALL LETTER A..LATIN SUBSCRIPT SMALL LETTER T",
text! "2102          ; XID_Start # L&       DOUBLE-STRUCK CAPITAL C",
text! "2107          ; XID_Start # L&       EULER CONSTANT",
text! "210A..2113    ; XID_Start # L&  [10] SCRIPT SMALL G..SCRIPT SMALL L",
text! "2115          ; XID_Start # L&       DOUBLE-STRUCK CAPITAL N"]

/-- lines 8769-8832 -/
def derivedCore137 : List Nat := [
text! "2118          ; XID_Start # Sm       SCRIPT CAPITAL P",
text! "2119..211D    ; XID_Start # L&   [5] DOUBLE-STRUCK CAPITAL P..DOUBLE-STRUCK CAPITAL R",
text! "2124          ; XID_Start # L&       DOUBLE-STRUCK CAPITAL Z",
text! "2126          ; XID_Start # L&       OHM SIGN",
text! "2128          ; XID_Start # L&       BLACK-LETTER CAPITAL Z",
text! "212A..212D    ; XID_Start # L&   [4] KELVIN SIGN..BLACK-LETTER CAPITAL C",
text! "212E          ; XID_Start # So       ESTIMATED SYMBOL",
text! "212F..2134    ; XID_Start # L&   [6] SCRIPT SMALL E..SCRIPT SMALL O",
text! "2135..2138    ; XID_Start # Lo   [4] ALEF SYMBOL..DALET SYMBOL",
text! "2139          ; XID_Start # L&       INFORMATION SOURCE",
text! "213C..213F    ; XID_Start # L&   [4] DOUBLE-STRUCK SMALL PI..DOUBLE-STRUCK CAPITAL PI",
text! "2145..2149    ; XID_Start # L&   [5] DOUBLE-STRUCK ITALIC CAPITAL D..DOUBLE-STRUCK ITALIC SMALL J",
text! "214E          ; XID_Start # L&       TURNED SMALL F",
text! "2160..2182    ; XID_Start # Nl  [35] ROMAN NUMERAL ONE..ROMAN NUMERAL TEN THOUSAND",
text! "2183..2184    ; XID_Start # L&   [2] ROMAN NUMERAL REVERSED ONE HUNDRED..LATIN SMALL LETTER REVERSED C",
text! "2185..2188    ; XID_Start # Nl   [4] ROMAN NUMERAL SIX LATE FORM..ROMAN NUMERAL ONE HUNDRED THOUSAND",
text! "2C00..2C7B    ; XID_Start # L& [124] GLAGOLITIC CAPITAL LETTER AZU..LATIN LETTER SMALL CAPITAL TURNED E",
text! "2C7C..2C7D    ; XID_Start # Lm   [2] LATIN SUBSCRIPT SMALL LETTER J..MODIFIER LETTER CAPITAL V",
text! "2C7E..2CE4    ; XID_Start # L& [103] LATIN CAPITAL LETTER S WITH SWASH TAIL..COPTIC SYMBOL KAI",
text! "2CEB..2CEE    ; XID_Start # L&   [4] COPTIC CAPITAL LETTER CRYPTOGRAMMIC SHEI..COPTIC SMALL LETTER CRYPTOGRAMMIC GANGIA",
text! "2CF2..2CF3    ; XID_Start # L&   [2] COPTIC CAPITAL LETTER BOHAIRIC KHEI..COPTIC SMALL LETTER BOHAIRIC KHEI",
text! "2D00..2D25    ; XID_Start # L&  [38] GEORGIAN SMALL LETTER AN..GEORGIAN SMALL LETTER HOE",
text! "2D27          ; XID_Start # L&       GEORGIAN SMALL LETTER YN",
text! "2D2D          ; XID_Start # L&       GEORGIAN SMALL LETTER AEN",
text! "2D30..2D67    ; XID_Start # Lo  [56] TIFINAGH LETTER YA..TIFINAGH LETTER YO",
text! "2D6F          ; XID_Start # Lm       TIFINAGH MODIFIER LETTER LABIALIZATION MARK",
text! "2D80..2D96    ; XID_Start # Lo  [23] ETHIOPIC SYLLABLE LOA..ETHIOPIC SYLLABLE GGWE",
text! "2DA0..2DA6    ; XID_Start # Lo   [7] ETHIOPIC SYLLABLE SSA..ETHIOPIC SYLLABLE SSO",
text! "2DA8..2DAE    ; XID_Start # Lo   [7] ETHIOPIC SYLLABLE CCA..ETHIOPIC SYLLABLE CCO",
text! "2DB0..2DB6    ; XID_Start # Lo   [7] ETHIOPIC SYLLABLE ZZA..ETHIOPIC SYLLABLE ZZO",
text! "2DB8..2DBE    ; XID_Start # Lo   [7] ETHIOPIC SYLLABLE CCHA..ETHIOPIC SYLLABLE CCHO",
text! "2DC0..2DC6    ; XID_Start # Lo   [7] ETHIOPIC SYLLABLE QYA..ETHIOPIC SYLLABLE QYO",
text! "2DC8..2DCE    ; XID_Start # Lo   [7] ETHIOPIC SYLLABLE KYA..ETHIOPIC SYLLABLE KYO",
text! "2DD0..2DD6    ; XID_Start # Lo   [7] ETHIOPIC SYLLABLE XYA..ETHIOPIC SYLLABLE XYO",
text! "2DD8..2DDE    ; XID_Start # Lo   [7] ETHIOPIC SYLLABLE GYA..ETHIOPIC SYLLABLE GYO",
text! "3005          ; XID_Start # Lm       IDEOGRAPHIC ITERATION MARK",
text! "3006          ; XID_Start # Lo       IDEOGRAPHIC CLOSING MARK",
text! "3007          ; XID_Start # Nl       IDEOGRAPHIC NUMBER ZERO",
text! "3021..3029    ; XID_Start # Nl   [9] HANGZHOU NUMERAL ONE..HANGZHOU NUMERAL NINE",
text! "3031..3035    ; XID_Start # Lm   [5] VERTICAL KANA REPEAT MARK..VERTICAL KANA REPEAT MARK LOWER HALF",
text! "3038..303A    ; XID_Start # Nl   [3] HANGZHOU NUMERAL TEN..HANGZHOU NUMERAL THIRTY",
text! "303B          ; XID_Start # Lm       VERTICAL IDEOGRAPHIC ITERATION MARK",
text! "303C          ; XID_Start # Lo       MASU MARK",
text! "3041..3096    ; XID_Start # Lo  [86] HIRAGANA LETTER SMALL A..HIRAGANA LETTER SMALL KE",
text! "309D..309E    ; XID_Start # Lm   [2] HIRAGANA ITERATION MARK..HIRAGANA VOICED ITERATION MARK",
text! "309F          ; XID_Start # Lo       HIRAGANA DIGRAPH YORI",
text! "30A1..30FA    ; XID_Start # Lo  [90] KATAKANA LETTER SMALL A..KATAKANA LETTER VO",
text! "30FC..30FE    ; XID_Start # Lm   [3] KATAKANA-HIRAGANA PROLONGED SOUND MARK..KATAKANA VOICED ITERATION MARK",
text! "30FF          ; XID_Start # Lo       KATAKANA DIGRAPH KOTO",
text! "3105..312F    ; XID_Start # Lo  [43] BOPOMOFO LETTER B..BOPOMOFO LETTER NN",
text! "3131..318E    ; XID_Start # Lo  [94] HANGUL LETTER KIYEOK..HANGUL LETTER ARAEAE",
text! "31A0..31BF    ; XID_Start # Lo  [32] BOPOMOFO LETTER BU..BOPOMOFO LETTER AH",
text! "31F0..31FF    ; XID_Start # Lo  [16] KATAKANA LETTER SMALL KU..KATAKANA LETTER SMALL RO",
text! "3400..4DBF    ; XID_Start # Lo [6592] CJK UNIFIED IDEOGRAPH-3400..CJK UNIFIED IDEOGRAPH-4DBF",
text! "4E00..A014    ; XID_Start # Lo [21013] CJK UNIFIED IDEOGRAPH-4E00..YI SYLLABLE E",
text! "A015          ; XID_Start # Lm       YI SYLLABLE WU",
text! "A016..A48C    ; XID_Start # Lo [1143] YI SYLLABLE BIT..YI SYLLABLE YYR",
text! "A4D0..A4F7    ; XID_Start # Lo  [40] LISU LETTER BA..LISU LETTER OE",
text! "A4F8..A4FD    ; XID_Start # Lm   [6] LISU LETTER TONE MYA TI..LISU LETTER TONE MYA JEU",
text! "A500..A60B    ; XID_Start # Lo [268] VAI SYLLABLE EE..VAI SYLLABLE NG",
text! "A60C          ; XID_Start # Lm       VAI SYLLABLE LENGTHENER",
text! "A610..A61F    ; XID_Start # Lo  [16] VAI SYLLABLE NDOLE FA..VAI SYMBOL JONG",
text! "A62A..A62B    ; XID_Start # Lo   [2] VAI SYLLABLE NDOLE MA..VAI SYLLABLE NDOLE DO",
text! "A640..A66D    ; XID_Start # L&  [46] CYRILLIC CAPITAL LETTER ZEMLYA..CYRILLIC SMALL LETTER DOUBLE MONOCULAR O"]

/-- lines 8833-8896 -/
def derivedCore138 : List Nat := [
text! "A66E          ; XID_Start # Lo       CYRILLIC LETTER MULTIOCULAR O",
text! "A67F          ; XID_Start # Lm       CYRILLIC PAYEROK",
text! "A680..A69B    ; XID_Start # L&  [28] CYRILLIC CAPITAL LETTER DWE..CYRILLIC SMALL LETTER CROSSED O",
text! "A69C..A69D    ; XID_Start # Lm   [2] MODIFIER LETTER CYRILLIC HARD SIGN..MODIFIER LETTER CYRILLIC SOFT SIGN",
text! "A6A0..A6E5    ; XID_Start # Lo  [70] BAMUM LETTER A..BAMUM LETTER KI",
text! "A6E6..A6EF    ; XID_Start # Nl  [10] BAMUM LETTER MO..BAMUM LETTER KOGHOM",
text! "A717..A71F    ; XID_Start # Lm   [9] MODIFIER LETTER DOT VERTICAL BAR..MODIFIER LETTER LOW INVERTED EXCLAMATION MARK",
text! "A722..A76F    ; XID_Start # L&  [78] LATIN CAPITAL LETTER EGYPTOLOGICAL ALEF..LATIN SMALL LETTER CON",
text! "A770          ; XID_Start # Lm       MODIFIER LETTER US",
text! "A771..A787    ; XID_Start # L&  [23] LATIN SMALL LETTER DUM..LATIN SMALL LETTER INSULAR T",
text! "A788          ; XID_Start # Lm       MODIFIER LETTER LOW CIRCUMFLEX ACCENT",
text! "A78B..A78E    ; XID_Start # L&   [4] LATIN CAPITAL LETTER SALTILLO..LATIN SMALL LETTER L WITH RETROFLEX HOOK AND BELT",
text! "A78F          ; XID_Start # Lo       LATIN LETTER SINOLOGICAL DOT",
text! "A790..A7DC    ; XID_Start # L&  [77] LATIN CAPITAL LETTER N WITH DESCENDER..LATIN CAPITAL LETTER LAMBDA WITH STROKE",
text! "A7F1..A7F4    ; XID_Start # Lm   [4] MODIFIER LETTER CAPITAL S..MODIFIER LETTER CAPITAL Q",
text! "A7F5..A7F6    ; XID_Start # L&   [2] LATIN CAPITAL LETTER REVERSED HALF H..LATIN SMALL LETTER REVERSED HALF H",
text! "A7F7          ; XID_Start # Lo       LATIN EPIGRAPHIC LETTER SIDEWAYS I",
text! "A7F8..A7F9    ; XID_Start # Lm   [2] MODIFIER LETTER CAPITAL H WITH STROKE..MODIFIER LETTER SMALL LIGATURE OE",
text! "A7FA          ; XID_Start # L&       LATIN LETTER SMALL CAPITAL TURNED M",
text! "A7FB..A801    ; XID_Start # Lo   [7] LATIN EPIGRAPHIC LETTER REVERSED F..SYLOTI NAGRI LETTER I",
text! "A803..A805    ; XID_Start # Lo   [3] SYLOTI NAGRI LETTER U..SYLOTI NAGRI LETTER O",
text! "A807..A80A    ; XID_Start # Lo   [4] SYLOTI NAGRI LETTER KO..SYLOTI NAGRI LETTER GHO",
text! "A80C..A822    ; XID_Start # Lo  [23] SYLOTI NAGRI LETTER CO..SYLOTI NAGRI LETTER HO",
text! "A840..A873    ; XID_Start # Lo  [52] PHAGS-PA LETTER KA..PHAGS-PA LETTER CANDRABINDU",
text! "A882..A8B3    ; XID_Start # Lo  [50] SAURASHTRA LETTER A..SAURASHTRA LETTER LLA",
text! "A8F2..A8F7    ; XID_Start # Lo   [6] DEVANAGARI SIGN SPACING CANDRABINDU..DEVANAGARI SIGN CANDRABINDU AVAGRAHA",
text! "A8FB          ; XID_Start # Lo       DEVANAGARI HEADSTROKE",
text! "A8FD..A8FE    ; XID_Start # Lo   [2] DEVANAGARI JAIN OM..DEVANAGARI LETTER AY",
text! "A90A..A925    ; XID_Start # Lo  [28] KAYAH LI LETTER KA..KAYAH LI LETTER OO",
text! "A930..A946    ; XID_Start # Lo  [23] REJANG LETTER KA..REJANG LETTER A",
text! "A960..A97C    ; XID_Start # Lo  [29] HANGUL CHOSEONG TIKEUT-MIEUM..HANGUL CHOSEONG SSANGYEORINHIEUH",
text! "A984..A9B2    ; XID_Start # Lo  [47] JAVANESE LETTER A..JAVANESE LETTER HA",
text! "A9CF          ; XID_Start # Lm       JAVANESE PANGRANGKEP",
text! "A9E0..A9E4    ; XID_Start # Lo   [5] MYANMAR LETTER SHAN GHA..MYANMAR LETTER SHAN BHA",
text! "A9E6          ; XID_Start # Lm       MYANMAR MODIFIER LETTER SHAN REDUPLICATION",
text! "A9E7..A9EF    ; XID_Start # Lo   [9] MYANMAR LETTER TAI LAING NYA..MYANMAR LETTER TAI LAING NNA",
text! "A9FA..A9FE    ; XID_Start # Lo   [5] MYANMAR LETTER TAI LAING LLA..MYANMAR LETTER TAI LAING BHA",
text! "AA00..AA28    ; XID_Start # Lo  [41] CHAM LETTER A..CHAM LETTER HA",
text! "AA40..AA42    ; XID_Start # Lo   [3] CHAM LETTER FINAL K..CHAM LETTER FINAL NG",
text! "AA44..AA4B    ; XID_Start # Lo   [8] CHAM LETTER FINAL CH..CHAM LETTER FINAL SS",
text! "AA60..AA6F    ; XID_Start # Lo  [16] MYANMAR LETTER KHAMTI GA..MYANMAR LETTER KHAMTI FA",
text! "AA70          ; XID_Start # Lm       MYANMAR MODIFIER LETTER KHAMTI REDUPLICATION",
text! "AA71..AA76    ; XID_Start # Lo   [6] MYANMAR LETTER KHAMTI XA..MYANMAR LOGOGRAM KHAMTI HM",
text! "AA7A          ; XID_Start # Lo       MYANMAR LETTER AITON RA",
text! "AA7E..AAAF    ; XID_Start # Lo  [50] MYANMAR LETTER SHWE PALAUNG CHA..TAI VIET LETTER HIGH O",
text! "AAB1          ; XID_Start # Lo       TAI VIET VOWEL AA",
text! "AAB5..AAB6    ; XID_Start # Lo   [2] TAI VIET VOWEL E..TAI VIET VOWEL O",
text! "AAB9..AABD    ; XID_Start # Lo   [5] TAI VIET VOWEL UEA..TAI VIET VOWEL AN",
text! "AAC0          ; XID_Start # Lo       TAI VIET TONE MAI NUENG",
text! "AAC2          ; XID_Start # Lo       TAI VIET TONE MAI SONG",
text! "AADB..AADC    ; XID_Start # Lo   [2] TAI VIET SYMBOL KON..TAI VIET SYMBOL NUENG",
text! "AADD          ; XID_Start # Lm       TAI VIET SYMBOL SAM",
text! "AAE0..AAEA    ; XID_Start # Lo  [11] MEETEI MAYEK LETTER E..MEETEI MAYEK LETTER SSA",
text! "AAF2          ; XID_Start # Lo       MEETEI MAYEK ANJI",
text! "AAF3..AAF4    ; XID_Start # Lm   [2] MEETEI MAYEK SYLLABLE REPETITION MARK..MEETEI MAYEK WORD REPETITION MARK",
text! "AB01..AB06    ; XID_Start # Lo   [6] ETHIOPIC SYLLABLE TTHU..ETHIOPIC SYLLABLE TTHO",
text! "AB09..AB0E    ; XID_Start # Lo   [6] ETHIOPIC SYLLABLE DDHU..ETHIOPIC SYLLABLE DDHO",
text! "AB11..AB16    ; XID_Start # Lo   [6] ETHIOPIC SYLLABLE DZU..ETHIOPIC SYLLABLE DZO",
text! "AB20..AB26    ; XID_Start # Lo   [7] ETHIOPIC SYLLABLE CCHHA..ETHIOPIC SYLLABLE CCHHO",
text! "AB28..AB2E    ; XID_Start # Lo   [7] ETHIOPIC SYLLABLE BBA..ETHIOPIC SYLLABLE BBO",
text! "AB30..AB5A    ; XID_Start # L&  [43] LATIN SMALL LETTER BARRED ALPHA..LATIN SMALL LETTER Y WITH SHORT RIGHT LEG",
text! "AB5C..AB5F    ; XID_Start # Lm   [4] MODIFIER LETTER SMALL HENG..MODIFIER LETTER SMALL U WITH LEFT HOOK",
text! "AB60..AB68    ; XID_Start # L&   [9] LATIN SMALL LETTER SAKHA YAT..LATIN SMALL LETTER TURNED R WITH MIDDLE TILDE",
text! "AB69          ; XID_Start # Lm       MODIFIER LETTER SMALL TURNED W"]

/-- lines 8897-8960 -/
def derivedCore139 : List Nat := [
text! "AB70..ABBF    ; XID_Start # L&  [80] CHEROKEE SMALL LETTER A..CHEROKEE SMALL LETTER YA",
text! "ABC0..ABE2    ; XID_Start # Lo  [35] MEETEI MAYEK LETTER KOK..MEETEI MAYEK LETTER I LONSUM",
text! "AC00..D7A3    ; XID_Start # Lo [11172] HANGUL SYLLABLE GA..HANGUL SYLLABLE HIH",
text! "D7B0..D7C6    ; XID_Start # Lo  [23] HANGUL JUNGSEONG O-YEO..HANGUL JUNGSEONG ARAEA-E",
text! "D7CB..D7FB    ; XID_Start # Lo  [49] HANGUL JONGSEONG NIEUN-RIEUL..HANGUL JONGSEONG PHIEUPH-THIEUTH",
text! "F900..FA6D    ; XID_Start # Lo [366] CJK COMPATIBILITY IDEOGRAPH-F900..CJK COMPATIBILITY IDEOGRAPH-FA6D",
text! "FA70..FAD9    ; XID_Start # Lo [106] CJK COMPATIBILITY IDEOGRAPH-FA70..CJK COMPATIBILITY IDEOGRAPH-FAD9",
text! "FB00..FB06    ; XID_Start # L&   [7] LATIN SMALL LIGATURE FF..LATIN SMALL LIGATURE ST",
text! "FB13..FB17    ; XID_Start # L&   [5] ARMENIAN SMALL LIGATURE MEN NOW..ARMENIAN SMALL LIGATURE MEN XEH",
text! "FB1D          ; XID_Start # Lo       HEBREW LETTER YOD WITH HIRIQ",
text! "FB1F..FB28    ; XID_Start # Lo  [10] HEBREW LIGATURE YIDDISH YOD YOD PATAH..HEBREW LETTER WIDE TAV",
text! "FB2A..FB36    ; XID_Start # Lo  [13] HEBREW LETTER SHIN WITH SHIN DOT..HEBREW LETTER ZAYIN WITH DAGESH",
text! "FB38..FB3C    ; XID_Start # Lo   [5] HEBREW LETTER TET WITH DAGESH..HEBREW LETTER LAMED WITH DAGESH",
text! "FB3E          ; XID_Start # Lo       HEBREW LETTER MEM WITH DAGESH",
text! "FB40..FB41    ; XID_Start # Lo   [2] HEBREW LETTER NUN WITH DAGESH..HEBREW LETTER SAMEKH WITH DAGESH",
text! "FB43..FB44    ; XID_Start # Lo   [2] HEBREW LETTER FINAL PE WITH DAGESH..HEBREW LETTER PE WITH DAGESH",
text! "FB46..FBB1    ; XID_Start # Lo [108] HEBREW LETTER TSADI WITH DAGESH..ARABIC LETTER YEH BARREE WITH HAMZA ABOVE FINAL FORM",
text! "FBD3..FC5D    ; XID_Start # Lo [139] ARABIC LETTER NG ISOLATED FORM..ARABIC LIGATURE ALEF MAKSURA WITH SUPERSCRIPT ALEF ISOLATED FORM",
text! "FC64..FD3D    ; XID_Start # Lo [218] ARABIC LIGATURE YEH WITH HAMZA ABOVE WITH REH FINAL FORM..ARABIC LIGATURE ALEF WITH FATHATAN ISOLATED FORM",
text! "FD50..FD8F    ; XID_Start # Lo  [64] ARABIC LIGATURE TEH WITH JEEM WITH MEEM INITIAL FORM..ARABIC LIGATURE MEEM WITH KHAH WITH MEEM INITIAL FORM",
text! "FD92..FDC7    ; XID_Start # Lo  [54] ARABIC LIGATURE MEEM WITH JEEM WITH KHAH INITIAL FORM..ARABIC LIGATURE NOON WITH JEEM WITH YEH FINAL FORM",
text! "FDF0..FDF9    ; XID_Start # Lo  [10] ARABIC LIGATURE SALLA USED AS KORANIC STOP SIGN ISOLATED FORM..ARABIC LIGATURE SALLA ISOLATED FORM",
text! "FE71          ; XID_Start # Lo       ARABIC TATWEEL WITH FATHATAN ABOVE",
text! "FE73          ; XID_Start # Lo       ARABIC TAIL FRAGMENT",
text! "FE77          ; XID_Start # Lo       ARABIC FATHA MEDIAL FORM",
text! "FE79          ; XID_Start # Lo       ARABIC DAMMA MEDIAL FORM",
text! "FE7B          ; XID_Start # Lo       ARABIC KASRA MEDIAL FORM",
text! "FE7D          ; XID_Start # Lo       ARABIC SHADDA MEDIAL FORM",
text! "FE7F..FEFC    ; XID_Start # Lo [126] ARABIC SUKUN MEDIAL FORM..ARABIC LIGATURE LAM WITH ALEF FINAL FORM",
text! "FF21..FF3A    ; XID_Start # L&  [26] FULLWIDTH LATIN CAPITAL LETTER A..FULLWIDTH LATIN CAPITAL LETTER Z",
text! "FF41..FF5A    ; XID_Start # L&  [26] FULLWIDTH LATIN SMALL LETTER A..FULLWIDTH LATIN SMALL LETTER Z",
text! "FF66..FF6F    ; XID_Start # Lo  [10] HALFWIDTH KATAKANA LETTER WO..HALFWIDTH KATAKANA LETTER SMALL TU",
text! "FF70          ; XID_Start # Lm       HALFWIDTH KATAKANA-HIRAGANA PROLONGED SOUND MARK",
text! "FF71..FF9D    ; XID_Start # Lo  [45] HALFWIDTH KATAKANA LETTER A..HALFWIDTH KATAKANA LETTER N",
text! "FFA0..FFBE    ; XID_Start # Lo  [31] HALFWIDTH HANGUL FILLER..HALFWIDTH HANGUL LETTER HIEUH",
text! "FFC2..FFC7    ; XID_Start # Lo   [6] HALFWIDTH HANGUL LETTER A..HALFWIDTH HANGUL LETTER E",
text! "FFCA..FFCF    ; XID_Start # Lo   [6] HALFWIDTH HANGUL LETTER YEO..HALFWIDTH HANGUL LETTER OE",
text! "FFD2..FFD7    ; XID_Start # Lo   [6] HALFWIDTH HANGUL LETTER YO..HALFWIDTH HANGUL LETTER YU",
text! "FFDA..FFDC    ; XID_Start # Lo   [3] HALFWIDTH HANGUL LETTER EU..HALFWIDTH HANGUL LETTER I",
text! "10000..1000B  ; XID_Start # Lo  [12] LINEAR B SYLLABLE B008 A..LINEAR B SYLLABLE B046 JE",
text! "1000D..10026  ; XID_Start # Lo  [26] LINEAR B SYLLABLE B036 JO..LINEAR B SYLLABLE B032 QO",
text! "10028..1003A  ; XID_Start # Lo  [19] LINEAR B SYLLABLE B060 RA..LINEAR B SYLLABLE B042 WO",
text! "1003C..1003D  ; XID_Start # Lo   [2] LINEAR B SYLLABLE B017 ZA..LINEAR B SYLLABLE B074 ZE",
text! "1003F..1004D  ; XID_Start # Lo  [15] LINEAR B SYLLABLE B020 ZO..LINEAR B SYLLABLE B091 TWO",
text! "10050..1005D  ; XID_Start # Lo  [14] LINEAR B SYMBOL B018..LINEAR B SYMBOL B089",
text! "10080..100FA  ; XID_Start # Lo [123] LINEAR B IDEOGRAM B100 MAN..LINEAR B IDEOGRAM VESSEL B305",
text! "10140..10174  ; XID_Start # Nl  [53] GREEK ACROPHONIC ATTIC ONE QUARTER..GREEK ACROPHONIC STRATIAN FIFTY MNAS",
text! "10280..1029C  ; XID_Start # Lo  [29] LYCIAN LETTER A..LYCIAN LETTER X",
text! "102A0..102D0  ; XID_Start # Lo  [49] CARIAN LETTER A..CARIAN LETTER UUU3",
text! "10300..1031F  ; XID_Start # Lo  [32] OLD ITALIC LETTER A..OLD ITALIC LETTER ESS",
text! "1032D..10340  ; XID_Start # Lo  [20] OLD ITALIC LETTER YE..GOTHIC LETTER PAIRTHRA",
text! "10341         ; XID_Start # Nl       GOTHIC LETTER NINETY",
text! "10342..10349  ; XID_Start # Lo   [8] GOTHIC LETTER RAIDA..GOTHIC LETTER OTHAL",
text! "1034A         ; XID_Start # Nl       GOTHIC LETTER NINE HUNDRED",
text! "10350..10375  ; XID_Start # Lo  [38] OLD PERMIC LETTER AN..OLD PERMIC LETTER IA",
text! "10380..1039D  ; XID_Start # Lo  [30] UGARITIC LETTER ALPA..UGARITIC LETTER SSU",
text! "103A0..103C3  ; XID_Start # Lo  [36] OLD PERSIAN SIGN A..OLD PERSIAN SIGN HA",
text! "103C8..103CF  ; XID_Start # Lo   [8] OLD PERSIAN SIGN AURAMAZDAA..OLD PERSIAN SIGN BUUMISH",
text! "103D1..103D5  ; XID_Start # Nl   [5] OLD PERSIAN NUMBER ONE..OLD PERSIAN NUMBER HUNDRED",
text! "10400..1044F  ; XID_Start # L&  [80] DESERET CAPITAL LETTER LONG I..DESERET SMALL LETTER EW",
text! "10450..1049D  ; XID_Start # Lo  [78] SHAVIAN LETTER PEEP..OSMANYA LETTER OO",
text! "104B0..104D3  ; XID_Start # L&  [36] OSAGE CAPITAL LETTER A..OSAGE CAPITAL LETTER ZHA",
text! "104D8..104FB  ; XID_Start # L&  [36] OSAGE SMALL LETTER A..OSAGE SMALL LETTER ZHA",
text! "10500..10527  ; XID_Start # Lo  [40] ELBASAN LETTER A..ELBASAN LETTER KHE"]

/-- lines 8961-9024 -/
def derivedCore140 : List Nat := [
text! "10530..10563  ; XID_Start # Lo  [52] CAUCASIAN ALBANIAN LETTER ALT..CAUCASIAN ALBANIAN LETTER KIW",
text! "10570..1057A  ; XID_Start # L&  [11] VITHKUQI CAPITAL LETTER A..VITHKUQI CAPITAL LETTER GA",
text! "1057C..1058A  ; XID_Start # L&  [15] VITHKUQI CAPITAL LETTER HA..VITHKUQI CAPITAL LETTER RE",
text! "1058C..10592  ; XID_Start # L&   [7] VITHKUQI CAPITAL LETTER SE..VITHKUQI CAPITAL LETTER XE",
text! "10594..10595  ; XID_Start # L&   [2] VITHKUQI CAPITAL LETTER Y..VITHKUQI CAPITAL LETTER ZE",
text! "10597..105A1  ; XID_Start # L&  [11] VITHKUQI SMALL LETTER A..VITHKUQI SMALL LETTER GA",
text! "105A3..105B1  ; XID_Start # L&  [15] VITHKUQI SMALL LETTER HA..VITHKUQI SMALL LETTER RE",
text! "105B3..105B9  ; XID_Start # L&   [7] VITHKUQI SMALL LETTER SE..VITHKUQI SMALL LETTER XE",
text! "105BB..105BC  ; XID_Start # L&   [2] VITHKUQI SMALL LETTER Y..VITHKUQI SMALL LETTER ZE",
text! "105C0..105F3  ; XID_Start # Lo  [52] TODHRI LETTER A..TODHRI LETTER OO",
text! "10600..10736  ; XID_Start # Lo [311] LINEAR A SIGN AB001..LINEAR A SIGN A664",
text! "10740..10755  ; XID_Start # Lo  [22] LINEAR A SIGN A701 A..LINEAR A SIGN A732 JE",
text! "10760..10767  ; XID_Start # Lo   [8] LINEAR A SIGN A800..LINEAR A SIGN A807",
text! "10780..10785  ; XID_Start # Lm   [6] MODIFIER LETTER SMALL CAPITAL AA..MODIFIER LETTER SMALL B WITH HOOK",
text! "10787..107B0  ; XID_Start # Lm  [42] MODIFIER LETTER SMALL DZ DIGRAPH..MODIFIER LETTER SMALL V WITH RIGHT HOOK",
text! "107B2..107BA  ; XID_Start # Lm   [9] MODIFIER LETTER SMALL CAPITAL Y..MODIFIER LETTER SMALL S WITH CURL",
text! "10800..10805  ; XID_Start # Lo   [6] CYPRIOT SYLLABLE A..CYPRIOT SYLLABLE JA",
text! "10808         ; XID_Start # Lo       CYPRIOT SYLLABLE JO",
text! "1080A..10835  ; XID_Start # Lo  [44] CYPRIOT SYLLABLE KA..CYPRIOT SYLLABLE WO",
text! "10837..10838  ; XID_Start # Lo   [2] CYPRIOT SYLLABLE XA..CYPRIOT SYLLABLE XE",
text! "1083C         ; XID_Start # Lo       CYPRIOT SYLLABLE ZA",
text! "1083F..10855  ; XID_Start # Lo  [23] CYPRIOT SYLLABLE ZO..IMPERIAL ARAMAIC LETTER TAW",
text! "10860..10876  ; XID_Start # Lo  [23] PALMYRENE LETTER ALEPH..PALMYRENE LETTER TAW",
text! "10880..1089E  ; XID_Start # Lo  [31] NABATAEAN LETTER FINAL ALEPH..NABATAEAN LETTER TAW",
text! "108E0..108F2  ; XID_Start # Lo  [19] HATRAN LETTER ALEPH..HATRAN LETTER QOPH",
text! "108F4..108F5  ; XID_Start # Lo   [2] HATRAN LETTER SHIN..HATRAN LETTER TAW",
text! "10900..10915  ; XID_Start # Lo  [22] PHOENICIAN LETTER ALF..PHOENICIAN LETTER TAU",
text! "10920..10939  ; XID_Start # Lo  [26] LYDIAN LETTER A..LYDIAN LETTER C",
text! "10940..10959  ; XID_Start # Lo  [26] SIDETIC LETTER N01..SIDETIC LETTER N26",
text! "10980..109B7  ; XID_Start # Lo  [56] MEROITIC HIEROGLYPHIC LETTER A..MEROITIC CURSIVE LETTER DA",
text! "109BE..109BF  ; XID_Start # Lo   [2] MEROITIC CURSIVE LOGOGRAM RMT..MEROITIC CURSIVE LOGOGRAM IMN",
text! "10A00         ; XID_Start # Lo       KHAROSHTHI LETTER A",
text! "10A10..10A13  ; XID_Start # Lo   [4] KHAROSHTHI LETTER KA..KHAROSHTHI LETTER GHA",
text! "10A15..10A17  ; XID_Start # Lo   [3] KHAROSHTHI LETTER CA..KHAROSHTHI LETTER JA",
text! "10A19..10A35  ; XID_Start # Lo  [29] KHAROSHTHI LETTER NYA..KHAROSHTHI LETTER VHA",
text! "10A60..10A7C  ; XID_Start # Lo  [29] OLD SOUTH ARABIAN LETTER HE..OLD SOUTH ARABIAN LETTER THETH",
text! "10A80..10A9C  ; XID_Start # Lo  [29] OLD NORTH ARABIAN LETTER HEH..OLD NORTH ARABIAN LETTER ZAH",
text! "10AC0..10AC7  ; XID_Start # Lo   [8] MANICHAEAN LETTER ALEPH..MANICHAEAN LETTER WAW",
text! "10AC9..10AE4  ; XID_Start # Lo  [28] MANICHAEAN LETTER ZAYIN..MANICHAEAN LETTER TAW",
text! "10B00..10B35  ; XID_Start # Lo  [54] AVESTAN LETTER A..AVESTAN LETTER HE",
text! "10B40..10B55  ; XID_Start # Lo  [22] INSCRIPTIONAL PARTHIAN LETTER ALEPH..INSCRIPTIONAL PARTHIAN LETTER TAW",
text! "10B60..10B72  ; XID_Start # Lo  [19] INSCRIPTIONAL PAHLAVI LETTER ALEPH..INSCRIPTIONAL PAHLAVI LETTER TAW",
text! "10B80..10B91  ; XID_Start # Lo  [18] PSALTER PAHLAVI LETTER ALEPH..PSALTER PAHLAVI LETTER TAW",
text! "10C00..10C48  ; XID_Start # Lo  [73] OLD TURKIC LETTER ORKHON A..OLD TURKIC LETTER ORKHON BASH",
text! "10C80..10CB2  ; XID_Start # L&  [51] OLD HUNGARIAN CAPITAL LETTER A..OLD HUNGARIAN CAPITAL LETTER US",
text! "10CC0..10CF2  ; XID_Start # L&  [51] OLD HUNGARIAN SMALL LETTER A..OLD HUNGARIAN SMALL LETTER US",
text! "10D00..10D23  ; XID_Start # Lo  [36] HANIFI ROHINGYA LETTER A..HANIFI ROHINGYA MARK NA KHONNA",
text! "10D4A..10D4D  ; XID_Start # Lo   [4] GARAY VOWEL SIGN A..GARAY VOWEL SIGN EE",
text! "10D4E         ; XID_Start # Lm       GARAY VOWEL LENGTH MARK",
text! "10D4F         ; XID_Start # Lo       GARAY SUKUN",
text! "10D50..10D65  ; XID_Start # L&  [22] GARAY CAPITAL LETTER A..GARAY CAPITAL LETTER OLD NA",
text! "10D6F         ; XID_Start # Lm       GARAY REDUPLICATION MARK",
text! "10D70..10D85  ; XID_Start # L&  [22] GARAY SMALL LETTER A..GARAY SMALL LETTER OLD NA",
text! "10E80..10EA9  ; XID_Start # Lo  [42] YEZIDI LETTER ELIF..YEZIDI LETTER ET",
text! "10EB0..10EB1  ; XID_Start # Lo   [2] YEZIDI LETTER LAM WITH DOT ABOVE..YEZIDI LETTER YOT WITH CIRCUMFLEX ABOVE",
text! "10EC2..10EC4  ; XID_Start # Lo   [3] ARABIC LETTER DAL WITH TWO DOTS VERTICALLY BELOW..ARABIC LETTER KAF WITH TWO DOTS VERTICALLY BELOW",
text! "10EC5         ; XID_Start # Lm       ARABIC SMALL YEH BARREE WITH TWO DOTS BELOW",
text! "10EC6..10EC7  ; XID_Start # Lo   [2] ARABIC LETTER THIN NOON..ARABIC LETTER YEH WITH FOUR DOTS BELOW",
text! "10F00..10F1C  ; XID_Start # Lo  [29] OLD SOGDIAN LETTER ALEPH..OLD SOGDIAN LETTER FINAL TAW WITH VERTICAL TAIL",
text! "10F27         ; XID_Start # Lo       OLD SOGDIAN LIGATURE AYIN-DALETH",
text! "10F30..10F45  ; XID_Start # Lo  [22] SOGDIAN LETTER ALEPH..SOGDIAN INDEPENDENT SHIN",
text! "10F70..10F81  ; XID_Start # Lo  [18] OLD UYGHUR LETTER ALEPH..OLD UYGHUR LETTER LESH",
text! "10FB0..10FC4  ; XID_Start # Lo  [21] CHORASMIAN LETTER ALEPH..CHORASMIAN LETTER TAW",
text! "10FE0..10FF6  ; XID_Start # Lo  [23] ELYMAIC LETTER ALEPH..ELYMAIC LIGATURE ZAYIN-YODH"]

/-- lines 9025-9088 -/
def derivedCore141 : List Nat := [
text! "11003..11037  ; XID_Start # Lo  [53] BRAHMI SIGN JIHVAMULIYA..BRAHMI LETTER OLD TAMIL NNNA",
text! "11071..11072  ; XID_Start # Lo   [2] BRAHMI LETTER OLD TAMIL SHORT E..BRAHMI LETTER OLD TAMIL SHORT O",
text! "11075         ; XID_Start # Lo       BRAHMI LETTER OLD TAMIL LLA",
text! "11083..110AF  ; XID_Start # Lo  [45] KAITHI LETTER A..KAITHI LETTER HA",
text! "110D0..110E8  ; XID_Start # Lo  [25] SORA SOMPENG LETTER SAH..SORA SOMPENG LETTER MAE",
text! "11103..11126  ; XID_Start # Lo  [36] CHAKMA LETTER AA..CHAKMA LETTER HAA",
text! "11144         ; XID_Start # Lo       CHAKMA LETTER LHAA",
text! "11147         ; XID_Start # Lo       CHAKMA LETTER VAA",
text! "11150..11172  ; XID_Start # Lo  [35] MAHAJANI LETTER A..MAHAJANI LETTER RRA",
text! "11176         ; XID_Start # Lo       MAHAJANI LIGATURE SHRI",
text! "11183..111B2  ; XID_Start # Lo  [48] SHARADA LETTER A..SHARADA LETTER HA",
text! "111C1..111C4  ; XID_Start # Lo   [4] SHARADA SIGN AVAGRAHA..SHARADA OM",
text! "111DA         ; XID_Start # Lo       SHARADA EKAM",
text! "111DC         ; XID_Start # Lo       SHARADA HEADSTROKE",
text! "11200..11211  ; XID_Start # Lo  [18] KHOJKI LETTER A..KHOJKI LETTER JJA",
text! "11213..1122B  ; XID_Start # Lo  [25] KHOJKI LETTER NYA..KHOJKI LETTER LLA",
text! "1123F..11240  ; XID_Start # Lo   [2] KHOJKI LETTER QA..KHOJKI LETTER SHORT I",
text! "11280..11286  ; XID_Start # Lo   [7] MULTANI LETTER A..MULTANI LETTER GA",
text! "11288         ; XID_Start # Lo       MULTANI LETTER GHA",
text! "1128A..1128D  ; XID_Start # Lo   [4] MULTANI LETTER CA..MULTANI LETTER JJA",
text! "1128F..1129D  ; XID_Start # Lo  [15] MULTANI LETTER NYA..MULTANI LETTER BA",
text! "1129F..112A8  ; XID_Start # Lo  [10] MULTANI LETTER BHA..MULTANI LETTER RHA",
text! "112B0..112DE  ; XID_Start # Lo  [47] KHUDAWADI LETTER A..KHUDAWADI LETTER HA",
text! "11305..1130C  ; XID_Start # Lo   [8] GRANTHA LETTER A..GRANTHA LETTER VOCALIC L",
text! "1130F..11310  ; XID_Start # Lo   [2] GRANTHA LETTER EE..GRANTHA LETTER AI",
text! "11313..11328  ; XID_Start # Lo  [22] GRANTHA LETTER OO..GRANTHA LETTER NA",
text! "1132A..11330  ; XID_Start # Lo   [7] GRANTHA LETTER PA..GRANTHA LETTER RA",
text! "11332..11333  ; XID_Start # Lo   [2] GRANTHA LETTER LA..GRANTHA LETTER LLA",
text! "11335..11339  ; XID_Start # Lo   [5] GRANTHA LETTER VA..GRANTHA LETTER HA",
text! "1133D         ; XID_Start # Lo       GRANTHA SIGN AVAGRAHA",
text! "11350         ; XID_Start # Lo       GRANTHA OM",
text! "1135D..11361  ; XID_Start # Lo   [5] GRANTHA SIGN PLUTA..GRANTHA LETTER VOCALIC LL",
text! "11380..11389  ; XID_Start # Lo  [10] TULU-TIGALARI LETTER A..TULU-TIGALARI LETTER VOCALIC LL",
text! "1138B         ; XID_Start # Lo       TULU-TIGALARI LETTER EE",
text! "1138E         ; XID_Start # Lo       TULU-TIGALARI LETTER AI",
text! "11390..113B5  ; XID_Start # Lo  [38] TULU-TIGALARI LETTER OO..TULU-TIGALARI LETTER LLLA",
text! "113B7         ; XID_Start # Lo       TULU-TIGALARI SIGN AVAGRAHA",
text! "113D1         ; XID_Start # Lo       TULU-TIGALARI REPHA",
text! "113D3         ; XID_Start # Lo       TULU-TIGALARI SIGN PLUTA",
text! "11400..11434  ; XID_Start # Lo  [53] NEWA LETTER A..NEWA LETTER HA",
text! "11447..1144A  ; XID_Start # Lo   [4] NEWA SIGN AVAGRAHA..NEWA SIDDHI",
text! "1145F..11461  ; XID_Start # Lo   [3] NEWA LETTER VEDIC ANUSVARA..NEWA SIGN UPADHMANIYA",
text! "11480..114AF  ; XID_Start # Lo  [48] TIRHUTA ANJI..TIRHUTA LETTER HA",
text! "114C4..114C5  ; XID_Start # Lo   [2] TIRHUTA SIGN AVAGRAHA..TIRHUTA GVANG",
text! "114C7         ; XID_Start # Lo       TIRHUTA OM",
text! "11580..115AE  ; XID_Start # Lo  [47] SIDDHAM LETTER A..SIDDHAM LETTER HA",
text! "115D8..115DB  ; XID_Start # Lo   [4] SIDDHAM LETTER THREE-CIRCLE ALTERNATE I..SIDDHAM LETTER ALTERNATE U",
text! "11600..1162F  ; XID_Start # Lo  [48] MODI LETTER A..MODI LETTER LLA",
text! "11644         ; XID_Start # Lo       MODI SIGN HUVA",
text! "11680..116AA  ; XID_Start # Lo  [43] TAKRI LETTER A..TAKRI LETTER RRA",
text! "116B8         ; XID_Start # Lo       TAKRI LETTER ARCHAIC KHA",
text! "11700..1171A  ; XID_Start # Lo  [27] AHOM LETTER KA..AHOM LETTER ALTERNATE BA",
text! "11740..11746  ; XID_Start # Lo   [7] AHOM LETTER CA..AHOM LETTER LLA",
text! "11800..1182B  ; XID_Start # Lo  [44] DOGRA LETTER A..DOGRA LETTER RRA",
text! "118A0..118DF  ; XID_Start # L&  [64] WARANG CITI CAPITAL LETTER NGAA..WARANG CITI SMALL LETTER VIYO",
text! "118FF..11906  ; XID_Start # Lo   [8] WARANG CITI OM..DIVES AKURU LETTER E",
text! "11909         ; XID_Start # Lo       DIVES AKURU LETTER O",
text! "1190C..11913  ; XID_Start # Lo   [8] DIVES AKURU LETTER KA..DIVES AKURU LETTER JA",
text! "11915..11916  ; XID_Start # Lo   [2] DIVES AKURU LETTER NYA..DIVES AKURU LETTER TTA",
text! "11918..1192F  ; XID_Start # Lo  [24] DIVES AKURU LETTER DDA..DIVES AKURU LETTER ZA",
text! "1193F         ; XID_Start # Lo       DIVES AKURU PREFIXED NASAL SIGN",
text! "11941         ; XID_Start # Lo       DIVES AKURU INITIAL RA",
text! "119A0..119A7  ; XID_Start # Lo   [8] NANDINAGARI LETTER A..NANDINAGARI LETTER VOCALIC RR",
text! "119AA..119D0  ; XID_Start # Lo  [39] NANDINAGARI LETTER E..NANDINAGARI LETTER RRA"]

/-- lines 9089-9152 -/
def derivedCore142 : List Nat := [
text! "119E1         ; XID_Start # Lo       NANDINAGARI SIGN AVAGRAHA",
text! "119E3         ; XID_Start # Lo       NANDINAGARI HEADSTROKE",
text! "11A00         ; XID_Start # Lo       ZANABAZAR SQUARE LETTER A",
text! "11A0B..11A32  ; XID_Start # Lo  [40] ZANABAZAR SQUARE LETTER KA..ZANABAZAR SQUARE LETTER KSSA",
text! "11A3A         ; XID_Start # Lo       ZANABAZAR SQUARE CLUSTER-INITIAL LETTER RA",
text! "11A50         ; XID_Start # Lo       SOYOMBO LETTER A",
text! "11A5C..11A89  ; XID_Start # Lo  [46] SOYOMBO LETTER KA..SOYOMBO CLUSTER-INITIAL LETTER SA",
text! "11A9D         ; XID_Start # Lo       SOYOMBO MARK PLUTA",
text! "11AB0..11AF8  ; XID_Start # Lo  [73] CANADIAN SYLLABICS NATTILIK HI..PAU CIN HAU GLOTTAL STOP FINAL",
text! "11BC0..11BE0  ; XID_Start # Lo  [33] SUNUWAR LETTER DEVI..SUNUWAR LETTER KLOKO",
text! "11C00..11C08  ; XID_Start # Lo   [9] BHAIKSUKI LETTER A..BHAIKSUKI LETTER VOCALIC L",
text! "11C0A..11C2E  ; XID_Start # Lo  [37] BHAIKSUKI LETTER E..BHAIKSUKI LETTER HA",
text! "11C40         ; XID_Start # Lo       BHAIKSUKI SIGN AVAGRAHA",
text! "11C72..11C8F  ; XID_Start # Lo  [30] MARCHEN LETTER KA..MARCHEN LETTER A",
text! "11D00..11D06  ; XID_Start # Lo   [7] MASARAM GONDI LETTER A..MASARAM GONDI LETTER E",
text! "11D08..11D09  ; XID_Start # Lo   [2] MASARAM GONDI LETTER AI..MASARAM GONDI LETTER O",
text! "11D0B..11D30  ; XID_Start # Lo  [38] MASARAM GONDI LETTER AU..MASARAM GONDI LETTER TRA",
text! "11D46         ; XID_Start # Lo       MASARAM GONDI REPHA",
text! "11D60..11D65  ; XID_Start # Lo   [6] GUNJALA GONDI LETTER A..GUNJALA GONDI LETTER UU",
text! "11D67..11D68  ; XID_Start # Lo   [2] GUNJALA GONDI LETTER EE..GUNJALA GONDI LETTER AI",
text! "11D6A..11D89  ; XID_Start # Lo  [32] GUNJALA GONDI LETTER OO..GUNJALA GONDI LETTER SA",
text! "11D98         ; XID_Start # Lo       GUNJALA GONDI OM",
text! "11DB0..11DD8  ; XID_Start # Lo  [41] TOLONG SIKI LETTER I..TOLONG SIKI LETTER RRH",
text! "11DD9         ; XID_Start # Lm       TOLONG SIKI SIGN SELA",
text! "11DDA..11DDB  ; XID_Start # Lo   [2] TOLONG SIKI SIGN HECAKA..TOLONG SIKI UNGGA",
text! "11EE0..11EF2  ; XID_Start # Lo  [19] MAKASAR LETTER KA..MAKASAR ANGKA",
text! "11F02         ; XID_Start # Lo       KAWI SIGN REPHA",
text! "11F04..11F10  ; XID_Start # Lo  [13] KAWI LETTER A..KAWI LETTER O",
text! "11F12..11F33  ; XID_Start # Lo  [34] KAWI LETTER KA..KAWI LETTER JNYA",
text! "11FB0         ; XID_Start # Lo       LISU LETTER YHA",
text! "12000..12399  ; XID_Start # Lo [922] CUNEIFORM SIGN A..CUNEIFORM SIGN U U",
text! "12400..1246E  ; XID_Start # Nl [111] CUNEIFORM NUMERIC SIGN TWO ASH..CUNEIFORM NUMERIC SIGN NINE U VARIANT FORM",
text! "12480..12543  ; XID_Start # Lo [196] CUNEIFORM SIGN AB TIMES NUN TENU..CUNEIFORM SIGN ZU5 TIMES THREE DISH TENU",
text! "12F90..12FF0  ; XID_Start # Lo  [97] CYPRO-MINOAN SIGN CM001..CYPRO-MINOAN SIGN CM114",
text! "13000..1342F  ; XID_Start # Lo [1072] EGYPTIAN HIEROGLYPH A001..EGYPTIAN HIEROGLYPH V011D",
text! "13441..13446  ; XID_Start # Lo   [6] EGYPTIAN HIEROGLYPH FULL BLANK..EGYPTIAN HIEROGLYPH WIDE LOST SIGN",
text! "13460..143FA  ; XID_Start # Lo [3995] EGYPTIAN HIEROGLYPH-13460..EGYPTIAN HIEROGLYPH-143FA",
text! "14400..14646  ; XID_Start # Lo [583] ANATOLIAN HIEROGLYPH A001..ANATOLIAN HIEROGLYPH A530",
text! "16100..1611D  ; XID_Start # Lo  [30] GURUNG KHEMA LETTER A..GURUNG KHEMA LETTER SA",
text! "16800..16A38  ; XID_Start # Lo [569] BAMUM LETTER PHASE-A NGKUE MFON..BAMUM LETTER PHASE-F VUEQ",
text! "16A40..16A5E  ; XID_Start # Lo  [31] MRO LETTER TA..MRO LETTER TEK",
text! "16A70..16ABE  ; XID_Start # Lo  [79] TANGSA LETTER OZ..TANGSA LETTER ZA",
text! "16AD0..16AED  ; XID_Start # Lo  [30] BASSA VAH LETTER ENNI..BASSA VAH LETTER I",
text! "16B00..16B2F  ; XID_Start # Lo  [48] PAHAWH HMONG VOWEL KEEB..PAHAWH HMONG CONSONANT CAU",
text! "16B40..16B43  ; XID_Start # Lm   [4] PAHAWH HMONG SIGN VOS SEEV..PAHAWH HMONG SIGN IB YAM",
text! "16B63..16B77  ; XID_Start # Lo  [21] PAHAWH HMONG SIGN VOS LUB..PAHAWH HMONG SIGN CIM NRES TOS",
text! "16B7D..16B8F  ; XID_Start # Lo  [19] PAHAWH HMONG CLAN SIGN TSHEEJ..PAHAWH HMONG CLAN SIGN VWJ",
text! "16D40..16D42  ; XID_Start # Lm   [3] KIRAT RAI SIGN ANUSVARA..KIRAT RAI SIGN VISARGA",
text! "16D43..16D6A  ; XID_Start # Lo  [40] KIRAT RAI LETTER A..KIRAT RAI VOWEL SIGN AU",
text! "16D6B..16D6C  ; XID_Start # Lm   [2] KIRAT RAI SIGN VIRAMA..KIRAT RAI SIGN SAAT",
text! "16E40..16E7F  ; XID_Start # L&  [64] MEDEFAIDRIN CAPITAL LETTER M..MEDEFAIDRIN SMALL LETTER Y",
text! "16EA0..16EB8  ; XID_Start # L&  [25] BERIA ERFE CAPITAL LETTER ARKAB..BERIA ERFE CAPITAL LETTER AY",
text! "16EBB..16ED3  ; XID_Start # L&  [25] BERIA ERFE SMALL LETTER ARKAB..BERIA ERFE SMALL LETTER AY",
text! "16F00..16F4A  ; XID_Start # Lo  [75] MIAO LETTER PA..MIAO LETTER RTE",
text! "16F50         ; XID_Start # Lo       MIAO LETTER NASALIZATION",
text! "16F93..16F9F  ; XID_Start # Lm  [13] MIAO LETTER TONE-2..MIAO LETTER REFORMED TONE-8",
text! "16FE0..16FE1  ; XID_Start # Lm   [2] TANGUT ITERATION MARK..NUSHU ITERATION MARK",
text! "16FE3         ; XID_Start # Lm       OLD CHINESE ITERATION MARK",
text! "16FF2..16FF3  ; XID_Start # Lm   [2] CHINESE SMALL SIMPLIFIED ER..CHINESE SMALL TRADITIONAL ER",
text! "16FF4..16FF6  ; XID_Start # Nl   [3] YANGQIN SIGN SLOW ONE BEAT..YANGQIN SIGN SLOW TWO BEATS",
text! "17000..18CD5  ; XID_Start # Lo [7382] TANGUT IDEOGRAPH-17000..KHITAN SMALL SCRIPT CHARACTER-18CD5",
text! "18CFF..18D1E  ; XID_Start # Lo  [32] KHITAN SMALL SCRIPT CHARACTER-18CFF..TANGUT IDEOGRAPH-18D1E",
text! "18D80..18DF2  ; XID_Start # Lo [115] TANGUT COMPONENT-769..TANGUT COMPONENT-883",
text! "1AFF0..1AFF3  ; XID_Start # Lm   [4] KATAKANA LETTER MINNAN TONE-2..KATAKANA LETTER MINNAN TONE-5"]

/-- lines 9153-9216 -/
def derivedCore143 : List Nat := [
text! "1AFF5..1AFFB  ; XID_Start # Lm   [7] KATAKANA LETTER MINNAN TONE-7..KATAKANA LETTER MINNAN NASALIZED TONE-5",
text! "1AFFD..1AFFE  ; XID_Start # Lm   [2] KATAKANA LETTER MINNAN NASALIZED TONE-7..KATAKANA LETTER MINNAN NASALIZED TONE-8",
text! "1B000..1B122  ; XID_Start # Lo [291] KATAKANA LETTER ARCHAIC E..KATAKANA LETTER ARCHAIC WU",
text! "1B132         ; XID_Start # Lo       HIRAGANA LETTER SMALL KO",
text! "1B150..1B152  ; XID_Start # Lo   [3] HIRAGANA LETTER SMALL WI..HIRAGANA LETTER SMALL WO",
text! "1B155         ; XID_Start # Lo       KATAKANA LETTER SMALL KO",
text! "1B164..1B167  ; XID_Start # Lo   [4] KATAKANA LETTER SMALL WI..KATAKANA LETTER SMALL N",
text! "1B170..1B2FB  ; XID_Start # Lo [396] NUSHU CHARACTER-1B170..NUSHU CHARACTER-1B2FB",
text! "1BC00..1BC6A  ; XID_Start # Lo [107] DUPLOYAN LETTER H..DUPLOYAN LETTER VOCALIC M",
text! "1BC70..1BC7C  ; XID_Start # Lo  [13] DUPLOYAN AFFIX LEFT HORIZONTAL SECANT..DUPLOYAN AFFIX ATTACHED TANGENT HOOK",
text! "1BC80..1BC88  ; XID_Start # Lo   [9] DUPLOYAN AFFIX HIGH ACUTE..DUPLOYAN AFFIX HIGH VERTICAL",
text! "1BC90..1BC99  ; XID_Start # Lo  [10] DUPLOYAN AFFIX LOW ACUTE..DUPLOYAN AFFIX LOW ARROW",
text! "1D400..1D454  ; XID_Start # L&  [85] MATHEMATICAL BOLD CAPITAL A..MATHEMATICAL ITALIC SMALL G",
text! "1D456..1D49C  ; XID_Start # L&  [71] MATHEMATICAL ITALIC SMALL I..MATHEMATICAL SCRIPT CAPITAL A",
text! "1D49E..1D49F  ; XID_Start # L&   [2] MATHEMATICAL SCRIPT CAPITAL C..MATHEMATICAL SCRIPT CAPITAL D",
text! "1D4A2         ; XID_Start # L&       MATHEMATICAL SCRIPT CAPITAL G",
text! "1D4A5..1D4A6  ; XID_Start # L&   [2] MATHEMATICAL SCRIPT CAPITAL J..MATHEMATICAL SCRIPT CAPITAL K",
text! "1D4A9..1D4AC  ; XID_Start # L&   [4] MATHEMATICAL SCRIPT CAPITAL N..MATHEMATICAL SCRIPT CAPITAL Q",
text! "1D4AE..1D4B9  ; XID_Start # L&  [12] MATHEMATICAL SCRIPT CAPITAL S..MATHEMATICAL SCRIPT SMALL D",
text! "1D4BB         ; XID_Start # L&       MATHEMATICAL SCRIPT SMALL F",
text! "1D4BD..1D4C3  ; XID_Start # L&   [7] MATHEMATICAL SCRIPT SMALL H..MATHEMATICAL SCRIPT SMALL N",
text! "1D4C5..1D505  ; XID_Start # L&  [65] MATHEMATICAL SCRIPT SMALL P..MATHEMATICAL FRAKTUR CAPITAL B",
text! "1D507..1D50A  ; XID_Start # L&   [4] MATHEMATICAL FRAKTUR CAPITAL D..MATHEMATICAL FRAKTUR CAPITAL G",
text! "1D50D..1D514  ; XID_Start # L&   [8] MATHEMATICAL FRAKTUR CAPITAL J..MATHEMATICAL FRAKTUR CAPITAL Q",
text! "1D516..1D51C  ; XID_Start # L&   [7] MATHEMATICAL FRAKTUR CAPITAL S..MATHEMATICAL FRAKTUR CAPITAL Y",
text! "1D51E..1D539  ; XID_Start # L&  [28] MATHEMATICAL FRAKTUR SMALL A..MATHEMATICAL DOUBLE-STRUCK CAPITAL B",
text! "1D53B..1D53E  ; XID_Start # L&   [4] MATHEMATICAL DOUBLE-STRUCK CAPITAL D..MATHEMATICAL DOUBLE-STRUCK CAPITAL G",
text! "1D540..1D544  ; XID_Start # L&   [5] MATHEMATICAL DOUBLE-STRUCK CAPITAL I..MATHEMATICAL DOUBLE-STRUCK CAPITAL M",
text! "1D546         ; XID_Start # L&       MATHEMATICAL DOUBLE-STRUCK CAPITAL O",
text! "1D54A..1D550  ; XID_Start # L&   [7] MATHEMATICAL DOUBLE-STRUCK CAPITAL S..MATHEMATICAL DOUBLE-STRUCK CAPITAL Y",
text! "1D552..1D6A5  ; XID_Start # L& [340] MATHEMATICAL DOUBLE-STRUCK SMALL A..MATHEMATICAL ITALIC SMALL DOTLESS J",
text! "1D6A8..1D6C0  ; XID_Start # L&  [25] MATHEMATICAL BOLD CAPITAL ALPHA..MATHEMATICAL BOLD CAPITAL OMEGA",
text! "1D6C2..1D6DA  ; XID_Start # L&  [25] MATHEMATICAL BOLD SMALL ALPHA..MATHEMATICAL BOLD SMALL OMEGA",
text! "1D6DC..1D6FA  ; XID_Start # L&  [31] MATHEMATICAL BOLD EPSILON SYMBOL..MATHEMATICAL ITALIC CAPITAL OMEGA",
text! "1D6FC..1D714  ; XID_Start # L&  [25] MATHEMATICAL ITALIC SMALL ALPHA..MATHEMATICAL ITALIC SMALL OMEGA",
text! "1D716..1D734  ; XID_Start # L&  [31] MATHEMATICAL ITALIC EPSILON SYMBOL..MATHEMATICAL BOLD ITALIC CAPITAL OMEGA",
text! "1D736..1D74E  ; XID_Start # L&  [25] MATHEMATICAL BOLD ITALIC SMALL ALPHA..MATHEMATICAL BOLD ITALIC SMALL OMEGA",
text! "1D750..1D76E  ; XID_Start # L&  [31] MATHEMATICAL BOLD ITALIC EPSILON SYMBOL..MATHEMATICAL SANS-SERIF BOLD CAPITAL OMEGA",
text! "1D770..1D788  ; XID_Start # L&  [25] MATHEMATICAL SANS-SERIF BOLD SMALL ALPHA..MATHEMATICAL SANS-SERIF BOLD SMALL OMEGA",
text! "1D78A..1D7A8  ; XID_Start # L&  [31] MATHEMATICAL SANS-SERIF BOLD EPSILON SYMBOL..MATHEMATICAL SANS-SERIF BOLD ITALIC CAPITAL OMEGA",
text! "1D7AA..1D7C2  ; XID_Start # L&  [25] MATHEMATICAL SANS-SERIF BOLD ITALIC SMALL ALPHA..MATHEMATICAL SANS-SERIF BOLD ITALIC SMALL OMEGA",
text! "1D7C4..1D7CB  ; XID_Start # L&   [8] MATHEMATICAL SANS-SERIF BOLD ITALIC EPSILON SYMBOL..MATHEMATICAL BOLD SMALL DIGAMMA",
text! "1DF00..1DF09  ; XID_Start # L&  [10] LATIN SMALL LETTER FENG DIGRAPH WITH TRILL..LATIN SMALL LETTER T WITH HOOK AND RETROFLEX HOOK",
text! "1DF0A         ; XID_Start # Lo       LATIN LETTER RETROFLEX CLICK WITH RETROFLEX HOOK",
text! "1DF0B..1DF1E  ; XID_Start # L&  [20] LATIN SMALL LETTER ESH WITH DOUBLE BAR..LATIN SMALL LETTER S WITH CURL",
text! "1DF25..1DF2A  ; XID_Start # L&   [6] LATIN SMALL LETTER D WITH MID-HEIGHT LEFT HOOK..LATIN SMALL LETTER T WITH MID-HEIGHT LEFT HOOK",
text! "1E030..1E06D  ; XID_Start # Lm  [62] MODIFIER LETTER CYRILLIC SMALL A..MODIFIER LETTER CYRILLIC SMALL STRAIGHT U WITH STROKE",
text! "1E100..1E12C  ; XID_Start # Lo  [45] NYIAKENG PUACHUE HMONG LETTER MA..NYIAKENG PUACHUE HMONG LETTER W",
text! "1E137..1E13D  ; XID_Start # Lm   [7] NYIAKENG PUACHUE HMONG SIGN FOR PERSON..NYIAKENG PUACHUE HMONG SYLLABLE LENGTHENER",
text! "1E14E         ; XID_Start # Lo       NYIAKENG PUACHUE HMONG LOGOGRAM NYAJ",
text! "1E290..1E2AD  ; XID_Start # Lo  [30] TOTO LETTER PA..TOTO LETTER A",
text! "1E2C0..1E2EB  ; XID_Start # Lo  [44] WANCHO LETTER AA..WANCHO LETTER YIH",
text! "1E4D0..1E4EA  ; XID_Start # Lo  [27] NAG MUNDARI LETTER O..NAG MUNDARI LETTER ELL",
text! "1E4EB         ; XID_Start # Lm       NAG MUNDARI SIGN OJOD",
text! "1E5D0..1E5ED  ; XID_Start # Lo  [30] OL ONAL LETTER O..OL ONAL LETTER EG",
text! "1E5F0         ; XID_Start # Lo       OL ONAL SIGN HODDOND",
text! "1E6C0..1E6DE  ; XID_Start # Lo  [31] TAI YO LETTER LOW KO..TAI YO LETTER HIGH KVO",
text! "1E6E0..1E6E2  ; XID_Start # Lo   [3] TAI YO LETTER AA..TAI YO LETTER UE",
text! "1E6E4..1E6E5  ; XID_Start # Lo   [2] TAI YO LETTER U..TAI YO LETTER AE",
text! "1E6E7..1E6ED  ; XID_Start # Lo   [7] TAI YO LETTER O..TAI YO LETTER AUE",
text! "1E6F0..1E6F4  ; XID_Start # Lo   [5] TAI YO LETTER AN..TAI YO LETTER AP",
text! "1E6FE         ; XID_Start # Lo       TAI YO SYMBOL MUEANG",
text! "1E6FF         ; XID_Start # Lm       TAI YO XAM LAI",
text! "1E7E0..1E7E6  ; XID_Start # Lo   [7] ETHIOPIC SYLLABLE HHYA..ETHIOPIC SYLLABLE HHYO"]

/-- lines 9217-9280 -/
def derivedCore144 : List Nat := [
text! "1E7E8..1E7EB  ; XID_Start # Lo   [4] ETHIOPIC SYLLABLE GURAGE HHWA..ETHIOPIC SYLLABLE HHWE",
text! "1E7ED..1E7EE  ; XID_Start # Lo   [2] ETHIOPIC SYLLABLE GURAGE MWI..ETHIOPIC SYLLABLE GURAGE MWEE",
text! "1E7F0..1E7FE  ; XID_Start # Lo  [15] ETHIOPIC SYLLABLE GURAGE QWI..ETHIOPIC SYLLABLE GURAGE PWEE",
text! "1E800..1E8C4  ; XID_Start # Lo [197] MENDE KIKAKUI SYLLABLE M001 KI..MENDE KIKAKUI SYLLABLE M060 NYON",
text! "1E900..1E943  ; XID_Start # L&  [68] ADLAM CAPITAL LETTER ALIF..ADLAM SMALL LETTER SHA",
text! "1E94B         ; XID_Start # Lm       ADLAM NASALIZATION MARK",
text! "1EE00..1EE03  ; XID_Start # Lo   [4] ARABIC MATHEMATICAL ALEF..ARABIC MATHEMATICAL DAL",
text! "1EE05..1EE1F  ; XID_Start # Lo  [27] ARABIC MATHEMATICAL WAW..ARABIC MATHEMATICAL DOTLESS QAF",
text! "1EE21..1EE22  ; XID_Start # Lo   [2] ARABIC MATHEMATICAL INITIAL BEH..ARABIC MATHEMATICAL INITIAL JEEM",
text! "1EE24         ; XID_Start # Lo       ARABIC MATHEMATICAL INITIAL HEH",
text! "1EE27         ; XID_Start # Lo       ARABIC MATHEMATICAL INITIAL HAH",
text! "1EE29..1EE32  ; XID_Start # Lo  [10] ARABIC MATHEMATICAL INITIAL YEH..ARABIC MATHEMATICAL INITIAL QAF",
text! "1EE34..1EE37  ; XID_Start # Lo   [4] ARABIC MATHEMATICAL INITIAL SHEEN..ARABIC MATHEMATICAL INITIAL KHAH",
text! "1EE39         ; XID_Start # Lo       ARABIC MATHEMATICAL INITIAL DAD",
text! "1EE3B         ; XID_Start # Lo       ARABIC MATHEMATICAL INITIAL GHAIN",
text! "1EE42         ; XID_Start # Lo       ARABIC MATHEMATICAL TAILED JEEM",
text! "1EE47         ; XID_Start # Lo       ARABIC MATHEMATICAL TAILED HAH",
text! "1EE49         ; XID_Start # Lo       ARABIC MATHEMATICAL TAILED YEH",
text! "1EE4B         ; XID_Start # Lo       ARABIC MATHEMATICAL TAILED LAM",
text! "1EE4D..1EE4F  ; XID_Start # Lo   [3] ARABIC MATHEMATICAL TAILED NOON..ARABIC MATHEMATICAL TAILED AIN",
text! "1EE51..1EE52  ; XID_Start # Lo   [2] ARABIC MATHEMATICAL TAILED SAD..ARABIC MATHEMATICAL TAILED QAF",
text! "1EE54         ; XID_Start # Lo       ARABIC MATHEMATICAL TAILED SHEEN",
text! "1EE57         ; XID_Start # Lo       ARABIC MATHEMATICAL TAILED KHAH",
text! "1EE59         ; XID_Start # Lo       ARABIC MATHEMATICAL TAILED DAD",
text! "1EE5B         ; XID_Start # Lo       ARABIC MATHEMATICAL TAILED GHAIN",
text! "1EE5D         ; XID_Start # Lo       ARABIC MATHEMATICAL TAILED DOTLESS NOON",
text! "1EE5F         ; XID_Start # Lo       ARABIC MATHEMATICAL TAILED DOTLESS QAF",
text! "1EE61..1EE62  ; XID_Start # Lo   [2] ARABIC MATHEMATICAL STRETCHED BEH..ARABIC MATHEMATICAL STRETCHED JEEM",
text! "1EE64         ; XID_Start # Lo       ARABIC MATHEMATICAL STRETCHED HEH",
text! "1EE67..1EE6A  ; XID_Start # Lo   [4] ARABIC MATHEMATICAL STRETCHED HAH..ARABIC MATHEMATICAL STRETCHED KAF",
text! "1EE6C..1EE72  ; XID_Start # Lo   [7] ARABIC MATHEMATICAL STRETCHED MEEM..ARABIC MATHEMATICAL STRETCHED QAF",
text! "1EE74..1EE77  ; XID_Start # Lo   [4] ARABIC MATHEMATICAL STRETCHED SHEEN..ARABIC MATHEMATICAL STRETCHED KHAH",
text! "1EE79..1EE7C  ; XID_Start # Lo   [4] ARABIC MATHEMATICAL STRETCHED DAD..ARABIC MATHEMATICAL STRETCHED DOTLESS BEH",
text! "1EE7E         ; XID_Start # Lo       ARABIC MATHEMATICAL STRETCHED DOTLESS FEH",
text! "1EE80..1EE89  ; XID_Start # Lo  [10] ARABIC MATHEMATICAL LOOPED ALEF..ARABIC MATHEMATICAL LOOPED YEH",
text! "1EE8B..1EE9B  ; XID_Start # Lo  [17] ARABIC MATHEMATICAL LOOPED LAM..ARABIC MATHEMATICAL LOOPED GHAIN",
text! "1EEA1..1EEA3  ; XID_Start # Lo   [3] ARABIC MATHEMATICAL DOUBLE-STRUCK BEH..ARABIC MATHEMATICAL DOUBLE-STRUCK DAL",
text! "1EEA5..1EEA9  ; XID_Start # Lo   [5] ARABIC MATHEMATICAL DOUBLE-STRUCK WAW..ARABIC MATHEMATICAL DOUBLE-STRUCK YEH",
text! "1EEAB..1EEBB  ; XID_Start # Lo  [17] ARABIC MATHEMATICAL DOUBLE-STRUCK LAM..ARABIC MATHEMATICAL DOUBLE-STRUCK GHAIN",
text! "20000..2A6DF  ; XID_Start # Lo [42720] CJK UNIFIED IDEOGRAPH-20000..CJK UNIFIED IDEOGRAPH-2A6DF",
text! "2A700..2B81D  ; XID_Start # Lo [4382] CJK UNIFIED IDEOGRAPH-2A700..CJK UNIFIED IDEOGRAPH-2B81D",
text! "2B820..2CEAD  ; XID_Start # Lo [5774] CJK UNIFIED IDEOGRAPH-2B820..CJK UNIFIED IDEOGRAPH-2CEAD",
text! "2CEB0..2EBE0  ; XID_Start # Lo [7473] CJK UNIFIED IDEOGRAPH-2CEB0..CJK UNIFIED IDEOGRAPH-2EBE0",
text! "2EBF0..2EE5D  ; XID_Start # Lo [622] CJK UNIFIED IDEOGRAPH-2EBF0..CJK UNIFIED IDEOGRAPH-2EE5D",
text! "2F800..2FA1D  ; XID_Start # Lo [542] CJK COMPATIBILITY IDEOGRAPH-2F800..CJK COMPATIBILITY IDEOGRAPH-2FA1D",
text! "30000..3134A  ; XID_Start # Lo [4939] CJK UNIFIED IDEOGRAPH-30000..CJK UNIFIED IDEOGRAPH-3134A",
text! "31350..33479  ; XID_Start # Lo [8490] CJK UNIFIED IDEOGRAPH-31350..CJK UNIFIED IDEOGRAPH-33479",
text! "",
text! "# Total code points: 145893",
text! "",
text! "# ================================================",
text! "",
text! "# Derived Property: XID_Continue",
text! "#  Mod_ID_Continue modified for closure under NFKx",
text! "#  Modified as described in UAX #15",
text! "#  NOTE: Does NOT remove the non-NFKx characters.",
text! "#        Merely ensures that if isIdentifer(string) then isIdentifier(NFKx(string))",
text! "#  NOTE: See UAX #31 for more information",
text! "",
text! "0030..0039    ; XID_Continue # Nd  [10] DIGIT ZERO..DIGIT NINE",
text! "0041..005A    ; XID_Continue # L&  [26] LATIN CAPITAL LETTER A..LATIN CAPITAL LETTER Z",
text! "005F          ; XID_Continue # Pc       LOW LINE",
text! "0061..007A    ; XID_Continue # L&  [26] LATIN SMALL LETTER A..LATIN SMALL LETTER Z",
text! "00AA          ; XID_Continue # Lo       FEMININE ORDINAL INDICATOR"]

/-- lines 9281-9344 -/
def derivedCore145 : List Nat := [
text! "00B5          ; XID_Continue # L&       MICRO SIGN",
text! "00B7          ; XID_Continue # Po       MIDDLE DOT",
text! "00BA          ; XID_Continue # Lo       MASCULINE ORDINAL INDICATOR",
text! "00C0..00D6    ; XID_Continue # L&  [23] LATIN CAPITAL LETTER A WITH GRAVE..LATIN CAPITAL LETTER O WITH DIAERESIS",
text! "00D8..00F6    ; XID_Continue # L&  [31] LATIN CAPITAL LETTER O WITH STROKE..LATIN SMALL LETTER O WITH DIAERESIS",
text! "00F8..01BA    ; XID_Continue # L& [195] LATIN SMALL LETTER O WITH STROKE..LATIN SMALL LETTER EZH WITH TAIL",
text! "01BB          ; XID_Continue # Lo       LATIN LETTER TWO WITH STROKE",
text! "01BC..01BF    ; XID_Continue # L&   [4] LATIN CAPITAL LETTER TONE FIVE..LATIN LETTER WYNN",
text! "01C0..01C3    ; XID_Continue # Lo   [4] LATIN LETTER DENTAL CLICK..LATIN LETTER RETROFLEX CLICK",
text! "01C4..0293    ; XID_Continue # L& [208] LATIN CAPITAL LETTER DZ WITH CARON..LATIN SMALL LETTER EZH WITH CURL",
text! "0294..0295    ; XID_Continue # Lo   [2] LATIN LETTER GLOTTAL STOP..LATIN LETTER PHARYNGEAL VOICED FRICATIVE",
text! "0296..02AF    ; XID_Continue # L&  [26] LATIN LETTER INVERTED GLOTTAL STOP..LATIN SMALL LETTER TURNED H WITH FISHHOOK AND TAIL",
text! "02B0..02C1    ; XID_Continue # Lm  [18] MODIFIER LETTER SMALL H..MODIFIER LETTER REVERSED GLOTTAL STOP",
text! "02C6..02D1    ; XID_Continue # Lm  [12] MODIFIER LETTER CIRCUMFLEX ACCENT..MODIFIER LETTER HALF TRIANGULAR COLON",
text! "02E0..02E4    ; XID_Continue # Lm   [5] MODIFIER LETTER SMALL GAMMA..MODIFIER LETTER SMALL REVERSED GLOTTAL STOP",
text! "02EC          ; XID_Continue # Lm       MODIFIER LETTER VOICING",
text! "02EE          ; XID_Continue # Lm       MODIFIER LETTER DOUBLE APOSTROPHE",
text! "0300..036F    ; XID_Continue # Mn [112] COMBINING GRAVE ACCENT..COMBINING LATIN SMALL LETTER X",
text! "0370..0373    ; XID_Continue # L&   [4] GREEK CAPITAL LETTER HETA..GREEK SMALL LETTER ARCHAIC SAMPI",
text! "0374          ; XID_Continue # Lm       GREEK NUMERAL SIGN",
text! "0376..0377    ; XID_Continue # L&   [2] GREEK CAPITAL LETTER PAMPHYLIAN DIGAMMA..GREEK SMALL LETTER PAMPHYLIAN DIGAMMA",
text! "037B..037D    ; XID_Continue # L&   [3] GREEK SMALL REVERSED LUNATE SIGMA SYMBOL..GREEK SMALL REVERSED DOTTED LUNATE SIGMA SYMBOL",
text! "037F          ; XID_Continue # L&       GREEK CAPITAL LETTER YOT",
text! "0386          ; XID_Continue # L&       GREEK CAPITAL LETTER ALPHA WITH TONOS",
text! "0387          ; XID_Continue # Po       GREEK ANO TELEIA",
text! "0388..038A    ; XID_Continue # L&   [3] GREEK CAPITAL LETTER EPSILON WITH TONOS..GREEK CAPITAL LETTER IOTA WITH TONOS",
text! "038C          ; XID_Continue # L&       GREEK CAPITAL LETTER OMICRON WITH TONOS",
text! "038E..03A1    ; XID_Continue # L&  [20] GREEK CAPITAL LETTER UPSILON WITH TONOS..GREEK CAPITAL LETTER RHO",
text! "03A3..03F5    ; XID_Continue # L&  [83] GREEK CAPITAL LETTER SIGMA..GREEK LUNATE EPSILON SYMBOL",
text! "03F7..0481    ; XID_Continue # L& [139] GREEK CAPITAL LETTER SHO..CYRILLIC SMALL LETTER KOPPA",
text! "0483..0487    ; XID_Continue # Mn   [5] COMBINING CYRILLIC TITLO..COMBINING CYRILLIC POKRYTIE",
text! "048A..052F    ; XID_Continue # L& [166] CYRILLIC CAPITAL LETTER SHORT I WITH TAIL..CYRILLIC SMALL LETTER EL WITH DESCENDER",
text! "0531..0556    ; XID_Continue # L&  [38] ARMENIAN CAPITAL LETTER AYB..ARMENIAN CAPITAL LETTER FEH",
text! "0559          ; XID_Continue # Lm       ARMENIAN MODIFIER LETTER LEFT HALF RING",
text! "0560..0588    ; XID_Continue # L&  [41] ARMENIAN SMALL LETTER TURNED AYB..ARMENIAN SMALL LETTER YI WITH STROKE",
text! "0591..05BD    ; XID_Continue # Mn  [45] HEBREW ACCENT ETNAHTA..HEBREW POINT METEG",
text! "05BF          ; XID_Continue # Mn       HEBREW POINT RAFE",
text! "05C1..05C2    ; XID_Continue # Mn   [2] HEBREW POINT SHIN DOT..HEBREW POINT SIN DOT",
text! "05C4..05C5    ; XID_Continue # Mn   [2] HEBREW MARK UPPER DOT..HEBREW MARK LOWER DOT",
text! "05C7          ; XID_Continue # Mn       HEBREW POINT QAMATS QATAN",
text! "05D0..05EA    ; XID_Continue # Lo  [27] HEBREW LETTER ALEF..HEBREW LETTER TAV",
text! "05EF..05F2    ; XID_Continue # Lo   [4] HEBREW YOD TRIANGLE..HEBREW LIGATURE YIDDISH DOUBLE YOD",
text! "0610..061A    ; XID_Continue # Mn  [11] ARABIC SIGN SALLALLAHOU ALAYHE WASSALLAM..ARABIC SMALL KASRA",
text! "0620..063F    ; XID_Continue # Lo  [32] ARABIC LETTER KASHMIRI YEH..ARABIC LETTER FARSI YEH WITH THREE DOTS ABOVE",
text! "0640          ; XID_Continue # Lm       ARABIC TATWEEL",
text! "0641..064A    ; XID_Continue # Lo  [10] ARABIC LETTER FEH..ARABIC LETTER YEH",
text! "064B..065F    ; XID_Continue # Mn  [21] ARABIC FATHATAN..ARABIC WAVY HAMZA BELOW",
text! "0660..0669    ; XID_Continue # Nd  [10] ARABIC-INDIC DIGIT ZERO..ARABIC-INDIC DIGIT NINE",
text! "066E..066F    ; XID_Continue # Lo   [2] ARABIC LETTER DOTLESS BEH..ARABIC LETTER DOTLESS QAF",
text! "0670          ; XID_Continue # Mn       ARABIC LETTER SUPERSCRIPT ALEF",
text! "0671..06D3    ; XID_Continue # Lo  [99] ARABIC LETTER ALEF WASLA..ARABIC LETTER YEH BARREE WITH HAMZA ABOVE",
text! "06D5          ; XID_Continue # Lo       ARABIC LETTER AE",
text! "06D6..06DC    ; XID_Continue # Mn   [7] ARABIC SMALL HIGH LIGATURE SAD WITH LAM WITH ALEF MAKSURA..ARABIC SMALL HIGH SEEN",
text! "06DF..06E4    ; XID_Continue # Mn   [6] ARABIC SMALL HIGH ROUNDED ZERO..ARABIC SMALL HIGH MADDA",
text! "06E5..06E6    ; XID_Continue # Lm   [2] ARABIC SMALL WAW..ARABIC SMALL YEH",
text! "06E7..06E8    ; XID_Continue # Mn   [2] ARABIC SMALL HIGH YEH..ARABIC SMALL HIGH NOON",
text! "06EA..06ED    ; XID_Continue # Mn   [4] ARABIC EMPTY CENTRE LOW STOP..ARABIC SMALL LOW MEEM",
text! "06EE..06EF    ; XID_Continue # Lo   [2] ARABIC LETTER DAL WITH INVERTED V..ARABIC LETTER REH WITH INVERTED V",
text! "06F0..06F9    ; XID_Continue # Nd  [10] EXTENDED ARABIC-INDIC DIGIT ZERO..EXTENDED ARABIC-INDIC DIGIT NINE",
text! "06FA..06FC    ; XID_Continue # Lo   [3] ARABIC LETTER SHEEN WITH DOT BELOW..ARABIC LETTER GHAIN WITH DOT BELOW",
text! "06FF          ; XID_Continue # Lo       ARABIC LETTER HEH WITH INVERTED V",
text! "0710          ; XID_Continue # Lo       SYRIAC LETTER ALAPH",
text! "0711          ; XID_Continue # Mn       SYRIAC LETTER SUPERSCRIPT ALAPH",
text! "0712..072F    ; XID_Continue # Lo  [30] SYRIAC LETTER BETH..SYRIAC LETTER PERSIAN DHALATH"]

/-- lines 9345-9408 -/
def derivedCore146 : List Nat := [
text! "0730..074A    ; XID_Continue # Mn  [27] SYRIAC PTHAHA ABOVE..SYRIAC BARREKH",
text! "074D..07A5    ; XID_Continue # Lo  [89] SYRIAC LETTER SOGDIAN ZHAIN..THAANA LETTER WAAVU",
text! "07A6..07B0    ; XID_Continue # Mn  [11] THAANA ABAFILI..THAANA SUKUN",
text! "07B1          ; XID_Continue # Lo       THAANA LETTER NAA",
text! "07C0..07C9    ; XID_Continue # Nd  [10] NKO DIGIT ZERO..NKO DIGIT NINE",
text! "07CA..07EA    ; XID_Continue # Lo  [33] NKO LETTER A..NKO LETTER JONA RA",
text! "07EB..07F3    ; XID_Continue # Mn   [9] NKO COMBINING SHORT HIGH TONE..NKO COMBINING DOUBLE DOT ABOVE",
text! "07F4..07F5    ; XID_Continue # Lm   [2] NKO HIGH TONE APOSTROPHE..NKO LOW TONE APOSTROPHE",
text! "07FA          ; XID_Continue # Lm       NKO LAJANYALAN",
text! "07FD          ; XID_Continue # Mn       NKO DANTAYALAN",
text! "0800..0815    ; XID_Continue # Lo  [22] SAMARITAN LETTER ALAF..SAMARITAN LETTER TAAF",
text! "0816..0819    ; XID_Continue # Mn   [4] SAMARITAN MARK IN..SAMARITAN MARK DAGESH",
text! "081A          ; XID_Continue # Lm       SAMARITAN MODIFIER LETTER EPENTHETIC YUT",
text! "081B..0823    ; XID_Continue # Mn   [9] SAMARITAN MARK EPENTHETIC YUT..SAMARITAN VOWEL SIGN A",
text! "0824          ; XID_Continue # Lm       SAMARITAN MODIFIER LETTER SHORT A",
text! "0825..0827    ; XID_Continue # Mn   [3] SAMARITAN VOWEL SIGN SHORT A..SAMARITAN VOWEL SIGN U",
text! "0828          ; XID_Continue # Lm       SAMARITAN MODIFIER LETTER I",
text! "0829..082D    ; XID_Continue # Mn   [5] SAMARITAN VOWEL SIGN LONG I..SAMARITAN MARK NEQUDAA",
text! "0840..0858    ; XID_Continue # Lo  [25] MANDAIC LETTER HALQA..MANDAIC LETTER AIN",
text! "0859..085B    ; XID_Continue # Mn   [3] MANDAIC AFFRICATION MARK..MANDAIC GEMINATION MARK",
text! "0860..086A    ; XID_Continue # Lo  [11] SYRIAC LETTER MALAYALAM NGA..SYRIAC LETTER MALAYALAM SSA",
text! "0870..0887    ; XID_Continue # Lo  [24] ARABIC LETTER ALEF WITH ATTACHED FATHA..ARABIC BASELINE ROUND DOT",
text! "0889..088F    ; XID_Continue # Lo   [7] ARABIC LETTER NOON WITH INVERTED SMALL V..ARABIC LETTER NOON WITH RING ABOVE",
text! "0897..089F    ; XID_Continue # Mn   [9] ARABIC PEPET..ARABIC HALF MADDA OVER MADDA",
text! "08A0..08C8    ; XID_Continue # Lo  [41] ARABIC LETTER BEH WITH SMALL V BELOW..ARABIC LETTER GRAF",
text! "08C9          ; XID_Continue # Lm       ARABIC SMALL FARSI YEH",
text! "08CA..08E1    ; XID_Continue # Mn  [24] ARABIC SMALL HIGH FARSI YEH..ARABIC SMALL HIGH SIGN SAFHA",
text! "08E3..0902    ; XID_Continue # Mn  [32] ARABIC TURNED DAMMA BELOW..DEVANAGARI SIGN ANUSVARA",
text! "0903          ; XID_Continue # Mc       DEVANAGARI SIGN VISARGA",
text! "0904..0939    ; XID_Continue # Lo  [54] DEVANAGARI LETTER SHORT A..DEVANAGARI LETTER HA",
text! "093A          ; XID_Continue # Mn       DEVANAGARI VOWEL SIGN OE",
text! "093B          ; XID_Continue # Mc       DEVANAGARI VOWEL SIGN OOE",
text! "093C          ; XID_Continue # Mn       DEVANAGARI SIGN NUKTA",
text! "093D          ; XID_Continue # Lo       DEVANAGARI SIGN AVAGRAHA",
text! "093E..0940    ; XID_Continue # Mc   [3] DEVANAGARI VOWEL SIGN AA..DEVANAGARI VOWEL SIGN II",
text! "0941..0948    ; XID_Continue # Mn   [8] DEVANAGARI VOWEL SIGN U..DEVANAGARI VOWEL SIGN AI",
text! "0949..094C    ; XID_Continue # Mc   [4] DEVANAGARI VOWEL SIGN CANDRA O..DEVANAGARI VOWEL SIGN AU",
text! "094D          ; XID_Continue # Mn       DEVANAGARI SIGN VIRAMA",
text! "094E..094F    ; XID_Continue # Mc   [2] DEVANAGARI VOWEL SIGN PRISHTHAMATRA E..DEVANAGARI VOWEL SIGN AW",
text! "0950          ; XID_Continue # Lo       DEVANAGARI OM",
text! "0951..0957    ; XID_Continue # Mn   [7] DEVANAGARI STRESS SIGN UDATTA..DEVANAGARI VOWEL SIGN UUE",
text! "0958..0961    ; XID_Continue # Lo  [10] DEVANAGARI LETTER QA..DEVANAGARI LETTER VOCALIC LL",
text! "0962..0963    ; XID_Continue # Mn   [2] DEVANAGARI VOWEL SIGN VOCALIC L..DEVANAGARI VOWEL SIGN VOCALIC LL",
text! "0966..096F    ; XID_Continue # Nd  [10] DEVANAGARI DIGIT ZERO..DEVANAGARI DIGIT NINE",
text! "0971          ; XID_Continue # Lm       DEVANAGARI SIGN HIGH SPACING DOT",
text! "0972..0980    ; XID_Continue # Lo  [15] DEVANAGARI LETTER CANDRA A..BENGALI ANJI",
text! "0981          ; XID_Continue # Mn       BENGALI SIGN CANDRABINDU",
text! "0982..0983    ; XID_Continue # Mc   [2] BENGALI SIGN ANUSVARA..BENGALI SIGN VISARGA",
text! "0985..098C    ; XID_Continue # Lo   [8] BENGALI LETTER A..BENGALI LETTER VOCALIC L",
text! "098F..0990    ; XID_Continue # Lo   [2] BENGALI LETTER E..BENGALI LETTER AI",
text! "0993..09A8    ; XID_Continue # Lo  [22] BENGALI LETTER O..BENGALI LETTER NA",
text! "09AA..09B0    ; XID_Continue # Lo   [7] BENGALI LETTER PA..BENGALI LETTER RA",
text! "09B2          ; XID_Continue # Lo       BENGALI LETTER LA",
text! "09B6..09B9    ; XID_Continue # Lo   [4] BENGALI LETTER SHA..BENGALI LETTER HA",
text! "09BC          ; XID_Continue # Mn       BENGALI SIGN NUKTA",
text! "09BD          ; XID_Continue # Lo       BENGALI SIGN AVAGRAHA",
text! "09BE..09C0    ; XID_Continue # Mc   [3] BENGALI VOWEL SIGN AA..BENGALI VOWEL SIGN II",
text! "09C1..09C4    ; XID_Continue # Mn   [4] BENGALI VOWEL SIGN U..BENGALI VOWEL SIGN VOCALIC RR",
text! "09C7..09C8    ; XID_Continue # Mc   [2] BENGALI VOWEL SIGN E..BENGALI VOWEL SIGN AI",
text! "09CB..09CC    ; XID_Continue # Mc   [2] BENGALI VOWEL SIGN O..BENGALI VOWEL SIGN AU",
text! "09CD          ; XID_Continue # Mn       BENGALI SIGN VIRAMA",
text! "09CE          ; XID_Continue # Lo       BENGALI LETTER KHANDA TA",
text! "09D7          ; XID_Continue # Mc       BENGALI AU LENGTH MARK",
text! "09DC..09DD    ; XID_Continue # Lo   [2] BENGALI LETTER RRA..BENGALI LETTER RHA"]

/-- lines 9409-9472 -/
def derivedCore147 : List Nat := [
text! "09DF..09E1    ; XID_Continue # Lo   [3] BENGALI LETTER YYA..BENGALI LETTER VOCALIC LL",
text! "09E2..09E3    ; XID_Continue # Mn   [2] BENGALI VOWEL SIGN VOCALIC L..BENGALI VOWEL SIGN VOCALIC LL",
text! "09E6..09EF    ; XID_Continue # Nd  [10] BENGALI DIGIT ZERO..BENGALI DIGIT NINE",
text! "09F0..09F1    ; XID_Continue # Lo   [2] BENGALI LETTER RA WITH MIDDLE DIAGONAL..BENGALI LETTER RA WITH LOWER DIAGONAL",
text! "09FC          ; XID_Continue # Lo       BENGALI LETTER VEDIC ANUSVARA",
text! "09FE          ; XID_Continue # Mn       BENGALI SANDHI MARK",
text! "0A01..0A02    ; XID_Continue # Mn   [2] GURMUKHI SIGN ADAK BINDI..GURMUKHI SIGN BINDI",
text! "0A03          ; XID_Continue # Mc       GURMUKHI SIGN VISARGA",
text! "0A05..0A0A    ; XID_Continue # Lo   [6] GURMUKHI LETTER A..GURMUKHI LETTER UU",
text! "0A0F..0A10    ; XID_Continue # Lo   [2] GURMUKHI LETTER EE..GURMUKHI LETTER AI",
text! "0A13..0A28    ; XID_Continue # Lo  [22] GURMUKHI LETTER OO..GURMUKHI LETTER NA",
text! "0A2A..0A30    ; XID_Continue # Lo   [7] GURMUKHI LETTER PA..GURMUKHI LETTER RA",
text! "0A32..0A33    ; XID_Continue # Lo   [2] GURMUKHI LETTER LA..GURMUKHI LETTER LLA",
text! "0A35..0A36    ; XID_Continue # Lo   [2] GURMUKHI LETTER VA..GURMUKHI LETTER SHA",
text! "0A38..0A39    ; XID_Continue # Lo   [2] GURMUKHI LETTER SA..GURMUKHI LETTER HA",
text! "0A3C          ; XID_Continue # Mn       GURMUKHI SIGN NUKTA",
text! "0A3E..0A40    ; XID_Continue # Mc   [3] GURMUKHI VOWEL SIGN AA..GURMUKHI VOWEL SIGN II",
text! "0A41..0A42    ; XID_Continue # Mn   [2] GURMUKHI VOWEL SIGN U..GURMUKHI VOWEL SIGN UU",
text! "0A47..0A48    ; XID_Continue # Mn   [2] GURMUKHI VOWEL SIGN EE..GURMUKHI VOWEL SIGN AI",
text! "0A4B..0A4D    ; XID_Continue # Mn   [3] GURMUKHI VOWEL SIGN OO..GURMUKHI SIGN VIRAMA",
text! "0A51          ; XID_Continue # Mn       GURMUKHI SIGN UDAAT",
text! "0A59..0A5C    ; XID_Continue # Lo   [4] GURMUKHI LETTER KHHA..GURMUKHI LETTER RRA",
text! "0A5E          ; XID_Continue # Lo       GURMUKHI LETTER FA",
text! "0A66..0A6F    ; XID_Continue # Nd  [10] GURMUKHI DIGIT ZERO..GURMUKHI DIGIT NINE",
text! "0A70..0A71    ; XID_Continue # Mn   [2] GURMUKHI TIPPI..GURMUKHI ADDAK",
text! "0A72..0A74    ; XID_Continue # Lo   [3] GURMUKHI IRI..GURMUKHI EK ONKAR",
text! "0A75          ; XID_Continue # Mn       GURMUKHI SIGN YAKASH",
text! "0A81..0A82    ; XID_Continue # Mn   [2] GUJARATI SIGN CANDRABINDU..GUJARATI SIGN ANUSVARA",
text! "0A83          ; XID_Continue # Mc       GUJARATI SIGN VISARGA",
text! "0A85..0A8D    ; XID_Continue # Lo   [9] GUJARATI LETTER A..GUJARATI VOWEL CANDRA E",
text! "0A8F..0A91    ; XID_Continue # Lo   [3] GUJARATI LETTER E..GUJARATI VOWEL CANDRA O",
text! "0A93..0AA8    ; XID_Continue # Lo  [22] GUJARATI LETTER O..GUJARATI LETTER NA",
text! "0AAA..0AB0    ; XID_Continue # Lo   [7] GUJARATI LETTER PA..GUJARATI LETTER RA",
text! "0AB2..0AB3    ; XID_Continue # Lo   [2] GUJARATI LETTER LA..GUJARATI LETTER LLA",
text! "0AB5..0AB9    ; XID_Continue # Lo   [5] GUJARATI LETTER VA..GUJARATI LETTER HA",
text! "0ABC          ; XID_Continue # Mn       GUJARATI SIGN NUKTA",
text! "0ABD          ; XID_Continue # Lo       GUJARATI SIGN AVAGRAHA",
text! "0ABE..0AC0    ; XID_Continue # Mc   [3] GUJARATI VOWEL SIGN AA..GUJARATI VOWEL SIGN II",
text! "0AC1..0AC5    ; XID_Continue # Mn   [5] GUJARATI VOWEL SIGN U..GUJARATI VOWEL SIGN CANDRA E",
text! "0AC7..0AC8    ; XID_Continue # Mn   [2] GUJARATI VOWEL SIGN E..GUJARATI VOWEL SIGN AI",
text! "0AC9          ; XID_Continue # Mc       GUJARATI VOWEL SIGN CANDRA O",
text! "0ACB..0ACC    ; XID_Continue # Mc   [2] GUJARATI VOWEL SIGN O..GUJARATI VOWEL SIGN AU",
text! "0ACD          ; XID_Continue # Mn       GUJARATI SIGN VIRAMA",
text! "0AD0          ; XID_Continue # Lo       GUJARATI OM",
text! "0AE0..0AE1    ; XID_Continue # Lo   [2] GUJARATI LETTER VOCALIC RR..GUJARATI LETTER VOCALIC LL",
text! "0AE2..0AE3    ; XID_Continue # Mn   [2] GUJARATI VOWEL SIGN VOCALIC L..GUJARATI VOWEL SIGN VOCALIC LL",
text! "0AE6..0AEF    ; XID_Continue # Nd  [10] GUJARATI DIGIT ZERO..GUJARATI DIGIT NINE",
text! "0AF9          ; XID_Continue # Lo       GUJARATI LETTER ZHA",
text! "0AFA..0AFF    ; XID_Continue # Mn   [6] GUJARATI SIGN SUKUN..GUJARATI SIGN TWO-CIRCLE NUKTA ABOVE",
text! "0B01          ; XID_Continue # Mn       ORIYA SIGN CANDRABINDU",
text! "0B02..0B03    ; XID_Continue # Mc   [2] ORIYA SIGN ANUSVARA..ORIYA SIGN VISARGA",
text! "0B05..0B0C    ; XID_Continue # Lo   [8] ORIYA LETTER A..ORIYA LETTER VOCALIC L",
text! "0B0F..0B10    ; XID_Continue # Lo   [2] ORIYA LETTER E..ORIYA LETTER AI",
text! "0B13..0B28    ; XID_Continue # Lo  [22] ORIYA LETTER O..ORIYA LETTER NA",
text! "0B2A..0B30    ; XID_Continue # Lo   [7] ORIYA LETTER PA..ORIYA LETTER RA",
text! "0B32..0B33    ; XID_Continue # Lo   [2] ORIYA LETTER LA..ORIYA LETTER LLA",
text! "0B35..0B39    ; XID_Continue # Lo   [5] ORIYA LETTER VA..ORIYA LETTER HA",
text! "0B3C          ; XID_Continue # Mn       ORIYA SIGN NUKTA",
text! "0B3D          ; XID_Continue # Lo       ORIYA SIGN AVAGRAHA",
text! "0B3E          ; XID_Continue # Mc       ORIYA VOWEL SIGN AA",
text! "0B3F          ; XID_Continue # Mn       ORIYA VOWEL SIGN I",
text! "0B40          ; XID_Continue # Mc       ORIYA VOWEL SIGN II",
text! "0B41..0B44    ; XID_Continue # Mn   [4] ORIYA VOWEL SIGN U..ORIYA VOWEL SIGN VOCALIC RR",
text! "0B47..0B48    ; XID_Continue # Mc   [2] ORIYA VOWEL SIGN E..ORIYA VOWEL SIGN AI"]

/-- lines 9473-9536 -/
def derivedCore148 : List Nat := [
text! "0B4B..0B4C    ; XID_Continue # Mc   [2] ORIYA VOWEL SIGN O..ORIYA VOWEL SIGN AU",
text! "0B4D          ; XID_Continue # Mn       ORIYA SIGN VIRAMA",
text! "0B55..0B56    ; XID_Continue # Mn   [2] ORIYA SIGN OVERLINE..ORIYA AI LENGTH MARK",
text! "0B57          ; XID_Continue # Mc       ORIYA AU LENGTH MARK",
text! "0B5C..0B5D    ; XID_Continue # Lo   [2] ORIYA LETTER RRA..ORIYA LETTER RHA",
text! "0B5F..0B61    ; XID_Continue # Lo   [3] ORIYA LETTER YYA..ORIYA LETTER VOCALIC LL",
text! "0B62..0B63    ; XID_Continue # Mn   [2] ORIYA VOWEL SIGN VOCALIC L..ORIYA VOWEL SIGN VOCALIC LL",
text! "0B66..0B6F    ; XID_Continue # Nd  [10] ORIYA DIGIT ZERO..ORIYA DIGIT NINE",
text! "0B71          ; XID_Continue # Lo       ORIYA LETTER WA",
text! "0B82          ; XID_Continue # Mn       TAMIL SIGN ANUSVARA",
text! "0B83          ; XID_Continue # Lo       TAMIL SIGN VISARGA",
text! "0B85..0B8A    ; XID_Continue # Lo   [6] TAMIL LETTER A..TAMIL LETTER UU",
text! "0B8E..0B90    ; XID_Continue # Lo   [3] TAMIL LETTER E..TAMIL LETTER AI",
text! "0B92..0B95    ; XID_Continue # Lo   [4] TAMIL LETTER O..TAMIL LETTER KA",
text! "0B99..0B9A    ; XID_Continue # Lo   [2] TAMIL LETTER NGA..TAMIL LETTER CA",
text! "0B9C          ; XID_Continue # Lo       TAMIL LETTER JA",
text! "0B9E..0B9F    ; XID_Continue # Lo   [2] TAMIL LETTER NYA..TAMIL LETTER TTA",
text! "0BA3..0BA4    ; XID_Continue # Lo   [2] TAMIL LETTER NNA..TAMIL LETTER TA",
text! "0BA8..0BAA    ; XID_Continue # Lo   [3] TAMIL LETTER NA..TAMIL LETTER PA",
text! "0BAE..0BB9    ; XID_Continue # Lo  [12] TAMIL LETTER MA..TAMIL LETTER HA",
text! "0BBE..0BBF    ; XID_Continue # Mc   [2] TAMIL VOWEL SIGN AA..TAMIL VOWEL SIGN I",
text! "0BC0          ; XID_Continue # Mn       TAMIL VOWEL SIGN II",
text! "0BC1..0BC2    ; XID_Continue # Mc   [2] TAMIL VOWEL SIGN U..TAMIL VOWEL SIGN UU",
text! "0BC6..0BC8    ; XID_Continue # Mc   [3] TAMIL VOWEL SIGN E..TAMIL VOWEL SIGN AI",
text! "0BCA..0BCC    ; XID_Continue # Mc   [3] TAMIL VOWEL SIGN O..TAMIL VOWEL SIGN AU",
text! "0BCD          ; XID_Continue # Mn       TAMIL SIGN VIRAMA",
text! "0BD0          ; XID_Continue # Lo       TAMIL OM",
text! "0BD7          ; XID_Continue # Mc       TAMIL AU LENGTH MARK",
text! "0BE6..0BEF    ; XID_Continue # Nd  [10] TAMIL DIGIT ZERO..TAMIL DIGIT NINE",
text! "0C00          ; XID_Continue # Mn       TELUGU SIGN COMBINING CANDRABINDU ABOVE",
text! "0C01..0C03    ; XID_Continue # Mc   [3] TELUGU SIGN CANDRABINDU..TELUGU SIGN VISARGA",
text! "0C04          ; XID_Continue # Mn       TELUGU SIGN COMBINING ANUSVARA ABOVE",
text! "0C05..0C0C    ; XID_Continue # Lo   [8] TELUGU LETTER A..TELUGU LETTER VOCALIC L",
text! "0C0E..0C10    ; XID_Continue # Lo   [3] TELUGU LETTER E..TELUGU LETTER AI",
text! "0C12..0C28    ; XID_Continue # Lo  [23] TELUGU LETTER O..TELUGU LETTER NA",
text! "0C2A..0C39    ; XID_Continue # Lo  [16] TELUGU LETTER PA..TELUGU LETTER HA",
text! "0C3C          ; XID_Continue # Mn       TELUGU SIGN NUKTA",
text! "0C3D          ; XID_Continue # Lo       TELUGU SIGN AVAGRAHA",
text! "0C3E..0C40    ; XID_Continue # Mn   [3] TELUGU VOWEL SIGN AA..TELUGU VOWEL SIGN II",
text! "0C41..0C44    ; XID_Continue # Mc   [4] TELUGU VOWEL SIGN U..TELUGU VOWEL SIGN VOCALIC RR",
text! "0C46..0C48    ; XID_Continue # Mn   [3] TELUGU VOWEL SIGN E..TELUGU VOWEL SIGN AI",
text! "0C4A..0C4D    ; XID_Continue # Mn   [4] TELUGU VOWEL SIGN O..TELUGU SIGN VIRAMA",
text! "0C55..0C56    ; XID_Continue # Mn   [2] TELUGU LENGTH MARK..TELUGU AI LENGTH MARK",
text! "0C58..0C5A    ; XID_Continue # Lo   [3] TELUGU LETTER TSA..TELUGU LETTER RRRA",
text! "0C5C..0C5D    ; XID_Continue # Lo   [2] TELUGU ARCHAIC SHRII..TELUGU LETTER NAKAARA POLLU",
text! "0C60..0C61    ; XID_Continue # Lo   [2] TELUGU LETTER VOCALIC RR..TELUGU LETTER VOCALIC LL",
text! "0C62..0C63    ; XID_Continue # Mn   [2] TELUGU VOWEL SIGN VOCALIC L..TELUGU VOWEL SIGN VOCALIC LL",
text! "0C66..0C6F    ; XID_Continue # Nd  [10] TELUGU DIGIT ZERO..TELUGU DIGIT NINE",
text! "0C80          ; XID_Continue # Lo       KANNADA SIGN SPACING CANDRABINDU",
text! "0C81          ; XID_Continue # Mn       KANNADA SIGN CANDRABINDU",
text! "0C82..0C83    ; XID_Continue # Mc   [2] KANNADA SIGN ANUSVARA..KANNADA SIGN VISARGA",
text! "0C85..0C8C    ; XID_Continue # Lo   [8] KANNADA LETTER A..KANNADA LETTER VOCALIC L",
text! "0C8E..0C90    ; XID_Continue # Lo   [3] KANNADA LETTER E..KANNADA LETTER AI",
text! "0C92..0CA8    ; XID_Continue # Lo  [23] KANNADA LETTER O..KANNADA LETTER NA",
text! "0CAA..0CB3    ; XID_Continue # Lo  [10] KANNADA LETTER PA..KANNADA LETTER LLA",
text! "0CB5..0CB9    ; XID_Continue # Lo   [5] KANNADA LETTER VA..KANNADA LETTER HA",
text! "0CBC          ; XID_Continue # Mn       KANNADA SIGN NUKTA",
text! "0CBD          ; XID_Continue # Lo       KANNADA SIGN AVAGRAHA",
text! "0CBE          ; XID_Continue # Mc       KANNADA VOWEL SIGN AA",
text! "0CBF          ; XID_Continue # Mn       KANNADA VOWEL SIGN I",
text! "0CC0..0CC4    ; XID_Continue # Mc   [5] KANNADA VOWEL SIGN II..KANNADA VOWEL SIGN VOCALIC RR",
text! "0CC6          ; XID_Continue # Mn       KANNADA VOWEL SIGN E",
text! "0CC7..0CC8    ; XID_Continue # Mc   [2] KANNADA VOWEL SIGN EE..KANNADA VOWEL SIGN AI",
text! "0CCA..0CCB    ; XID_Continue # Mc   [2] KANNADA VOWEL SIGN O..KANNADA VOWEL SIGN OO"]

/-- lines 9537-9600 -/
def derivedCore149 : List Nat := [
text! "0CCC..0CCD    ; XID_Continue # Mn   [2] KANNADA VOWEL SIGN AU..KANNADA SIGN VIRAMA",
text! "0CD5..0CD6    ; XID_Continue # Mc   [2] KANNADA LENGTH MARK..KANNADA AI LENGTH MARK",
text! "0CDC..0CDE    ; XID_Continue # Lo   [3] KANNADA ARCHAIC SHRII..KANNADA LETTER FA",
text! "0CE0..0CE1    ; XID_Continue # Lo   [2] KANNADA LETTER VOCALIC RR..KANNADA LETTER VOCALIC LL",
text! "0CE2..0CE3    ; XID_Continue # Mn   [2] KANNADA VOWEL SIGN VOCALIC L..KANNADA VOWEL SIGN VOCALIC LL",
text! "0CE6..0CEF    ; XID_Continue # Nd  [10] KANNADA DIGIT ZERO..KANNADA DIGIT NINE",
text! "0CF1..0CF2    ; XID_Continue # Lo   [2] KANNADA SIGN JIHVAMULIYA..KANNADA SIGN UPADHMANIYA",
text! "0CF3          ; XID_Continue # Mc       KANNADA SIGN COMBINING ANUSVARA ABOVE RIGHT",
text! "0D00..0D01    ; XID_Continue # Mn   [2] MALAYALAM SIGN COMBINING ANUSVARA ABOVE..MALAYALAM SIGN CANDRABINDU",
text! "0D02..0D03    ; XID_Continue # Mc   [2] MALAYALAM SIGN ANUSVARA..MALAYALAM SIGN VISARGA",
text! "0D04..0D0C    ; XID_Continue # Lo   [9] MALAYALAM LETTER VEDIC ANUSVARA..MALAYALAM LETTER VOCALIC L",
text! "0D0E..0D10    ; XID_Continue # Lo   [3] MALAYALAM LETTER E..MALAYALAM LETTER AI",
text! "0D12..0D3A    ; XID_Continue # Lo  [41] MALAYALAM LETTER O..MALAYALAM LETTER TTTA",
text! "0D3B..0D3C    ; XID_Continue # Mn   [2] MALAYALAM SIGN VERTICAL BAR VIRAMA..MALAYALAM SIGN CIRCULAR VIRAMA",
text! "0D3D          ; XID_Continue # Lo       MALAYALAM SIGN AVAGRAHA",
text! "0D3E..0D40    ; XID_Continue # Mc   [3] MALAYALAM VOWEL SIGN AA..MALAYALAM VOWEL SIGN II",
text! "0D41..0D44    ; XID_Continue # Mn   [4] MALAYALAM VOWEL SIGN U..MALAYALAM VOWEL SIGN VOCALIC RR",
text! "0D46..0D48    ; XID_Continue # Mc   [3] MALAYALAM VOWEL SIGN E..MALAYALAM VOWEL SIGN AI",
text! "0D4A..0D4C    ; XID_Continue # Mc   [3] MALAYALAM VOWEL SIGN O..MALAYALAM VOWEL SIGN AU",
text! "0D4D          ; XID_Continue # Mn       MALAYALAM SIGN VIRAMA",
text! "0D4E          ; XID_Continue # Lo       MALAYALAM LETTER DOT REPH",
text! "0D54..0D56    ; XID_Continue # Lo   [3] MALAYALAM LETTER CHILLU M..MALAYALAM LETTER CHILLU LLL",
text! "0D57          ; XID_Continue # Mc       MALAYALAM AU LENGTH MARK",
text! "0D5F..0D61    ; XID_Continue # Lo   [3] MALAYALAM LETTER ARCHAIC II..MALAYALAM LETTER VOCALIC LL",
text! "0D62..0D63    ; XID_Continue # Mn   [2] MALAYALAM VOWEL SIGN VOCALIC L..MALAYALAM VOWEL SIGN VOCALIC LL",
text! "0D66..0D6F    ; XID_Continue # Nd  [10] MALAYALAM DIGIT ZERO..MALAYALAM DIGIT NINE",
text! "0D7A..0D7F    ; XID_Continue # Lo   [6] MALAYALAM LETTER CHILLU NN..MALAYALAM LETTER CHILLU K",
text! "0D81          ; XID_Continue # Mn       SINHALA SIGN CANDRABINDU",
text! "0D82..0D83    ; XID_Continue # Mc   [2] SINHALA SIGN ANUSVARAYA..SINHALA SIGN VISARGAYA",
text! "0D85..0D96    ; XID_Continue # Lo  [18] SINHALA LETTER AYANNA..SINHALA LETTER AUYANNA",
text! "0D9A..0DB1    ; XID_Continue # Lo  [24] SINHALA LETTER ALPAPRAANA KAYANNA..SINHALA LETTER DANTAJA NAYANNA",
text! "0DB3..0DBB    ; XID_Continue # Lo   [9] SINHALA LETTER SANYAKA DAYANNA..SINHALA LETTER RAYANNA",
text! "0DBD          ; XID_Continue # Lo       SINHALA LETTER DANTAJA LAYANNA",
text! "0DC0..0DC6    ; XID_Continue # Lo   [7] SINHALA LETTER VAYANNA..SINHALA LETTER FAYANNA",
text! "0DCA          ; XID_Continue # Mn       SINHALA SIGN AL-LAKUNA",
text! "0DCF..0DD1    ; XID_Continue # Mc   [3] SINHALA VOWEL SIGN AELA-PILLA..SINHALA VOWEL SIGN DIGA AEDA-PILLA",
text! "0DD2..0DD4    ; XID_Continue # Mn   [3] SINHALA VOWEL SIGN KETTI IS-PILLA..SINHALA VOWEL SIGN KETTI PAA-PILLA",
text! "0DD6          ; XID_Continue # Mn       SINHALA VOWEL SIGN DIGA PAA-PILLA",
text! "0DD8..0DDF    ; XID_Continue # Mc   [8] SINHALA VOWEL SIGN GAETTA-PILLA..SINHALA VOWEL SIGN GAYANUKITTA",
text! "0DE6..0DEF    ; XID_Continue # Nd  [10] SINHALA LITH DIGIT ZERO..SINHALA LITH DIGIT NINE",
text! "0DF2..0DF3    ; XID_Continue # Mc   [2] SINHALA VOWEL SIGN DIGA GAETTA-PILLA..SINHALA VOWEL SIGN DIGA GAYANUKITTA",
text! "0E01..0E30    ; XID_Continue # Lo  [48] THAI CHARACTER KO KAI..THAI CHARACTER SARA A",
text! "0E31          ; XID_Continue # Mn       THAI CHARACTER MAI HAN-AKAT",
text! "0E32..0E33    ; XID_Continue # Lo   [2] THAI CHARACTER SARA AA..THAI CHARACTER SARA AM",
text! "0E34..0E3A    ; XID_Continue # Mn   [7] THAI CHARACTER SARA I..THAI CHARACTER PHINTHU",
text! "0E40..0E45    ; XID_Continue # Lo   [6] THAI CHARACTER SARA E..THAI CHARACTER LAKKHANGYAO",
text! "0E46          ; XID_Continue # Lm       THAI CHARACTER MAIYAMOK",
text! "0E47..0E4E    ; XID_Continue # Mn   [8] THAI CHARACTER MAITAIKHU..THAI CHARACTER YAMAKKAN",
text! "0E50..0E59    ; XID_Continue # Nd  [10] THAI DIGIT ZERO..THAI DIGIT NINE",
text! "0E81..0E82    ; XID_Continue # Lo   [2] LAO LETTER KO..LAO LETTER KHO SUNG",
text! "0E84          ; XID_Continue # Lo       LAO LETTER KHO TAM",
text! "0E86..0E8A    ; XID_Continue # Lo   [5] LAO LETTER PALI GHA..LAO LETTER SO TAM",
text! "0E8C..0EA3    ; XID_Continue # Lo  [24] LAO LETTER PALI JHA..LAO LETTER LO LING",
text! "0EA5          ; XID_Continue # Lo       LAO LETTER LO LOOT",
text! "0EA7..0EB0    ; XID_Continue # Lo  [10] LAO LETTER WO..LAO VOWEL SIGN A",
text! "0EB1          ; XID_Continue # Mn       LAO VOWEL SIGN MAI KAN",
text! "0EB2..0EB3    ; XID_Continue # Lo   [2] LAO VOWEL SIGN AA..LAO VOWEL SIGN AM",
text! "0EB4..0EBC    ; XID_Continue # Mn   [9] LAO VOWEL SIGN I..LAO SEMIVOWEL SIGN LO",
text! "0EBD          ; XID_Continue # Lo       LAO SEMIVOWEL SIGN NYO",
text! "0EC0..0EC4    ; XID_Continue # Lo   [5] LAO VOWEL SIGN E..LAO VOWEL SIGN AI",
text! "0EC6          ; XID_Continue # Lm       LAO KO LA",
text! "0EC8..0ECE    ; XID_Continue # Mn   [7] LAO TONE MAI EK..LAO YAMAKKAN",
text! "0ED0..0ED9    ; XID_Continue # Nd  [10] LAO DIGIT ZERO..LAO DIGIT NINE",
text! "0EDC..0EDF    ; XID_Continue # Lo   [4] LAO HO NO..LAO LETTER KHMU NYO"]

/-- lines 9601-9664 -/
def derivedCore150 : List Nat := [
text! "0F00          ; XID_Continue # Lo       TIBETAN SYLLABLE OM",
text! "0F18..0F19    ; XID_Continue # Mn   [2] TIBETAN ASTROLOGICAL SIGN -KHYUD PA..TIBETAN ASTROLOGICAL SIGN SDONG TSHUGS",
text! "0F20..0F29    ; XID_Continue # Nd  [10] TIBETAN DIGIT ZERO..TIBETAN DIGIT NINE",
text! "0F35          ; XID_Continue # Mn       TIBETAN MARK NGAS BZUNG NYI ZLA",
text! "0F37          ; XID_Continue # Mn       TIBETAN MARK NGAS BZUNG SGOR RTAGS",
text! "0F39          ; XID_Continue # Mn       TIBETAN MARK TSA -PHRU",
text! "0F3E..0F3F    ; XID_Continue # Mc   [2] TIBETAN SIGN YAR TSHES..TIBETAN SIGN MAR TSHES",
text! "0F40..0F47    ; XID_Continue # Lo   [8] TIBETAN LETTER KA..TIBETAN LETTER JA",
text! "0F49..0F6C    ; XID_Continue # Lo  [36] TIBETAN LETTER NYA..TIBETAN LETTER RRA",
text! "0F71..0F7E    ; XID_Continue # Mn  [14] TIBETAN VOWEL SIGN AA..TIBETAN SIGN RJES SU NGA RO",
text! "0F7F          ; XID_Continue # Mc       TIBETAN SIGN RNAM BCAD",
text! "0F80..0F84    ; XID_Continue # Mn   [5] TIBETAN VOWEL SIGN REVERSED I..TIBETAN MARK HALANTA",
text! "0F86..0F87    ; XID_Continue # Mn   [2] TIBETAN SIGN LCI RTAGS..TIBETAN SIGN YANG RTAGS",
text! "0F88..0F8C    ; XID_Continue # Lo   [5] TIBETAN SIGN LCE TSA CAN..TIBETAN SIGN INVERTED MCHU CAN",
text! "0F8D..0F97    ; XID_Continue # Mn  [11] TIBETAN SUBJOINED SIGN LCE TSA CAN..TIBETAN SUBJOINED LETTER JA",
text! "0F99..0FBC    ; XID_Continue # Mn  [36] TIBETAN SUBJOINED LETTER NYA..TIBETAN SUBJOINED LETTER FIXED-FORM RA",
text! "0FC6          ; XID_Continue # Mn       TIBETAN SYMBOL PADMA GDAN",
text! "1000..102A    ; XID_Continue # Lo  [43] MYANMAR LETTER KA..MYANMAR LETTER AU",
text! "102B..102C    ; XID_Continue # Mc   [2] MYANMAR VOWEL SIGN TALL AA..MYANMAR VOWEL SIGN AA",
text! "102D..1030    ; XID_Continue # Mn   [4] MYANMAR VOWEL SIGN I..MYANMAR VOWEL SIGN UU",
text! "1031          ; XID_Continue # Mc       MYANMAR VOWEL SIGN E",
text! "1032..1037    ; XID_Continue # Mn   [6] MYANMAR VOWEL SIGN AI..MYANMAR SIGN DOT BELOW",
text! "1038          ; XID_Continue # Mc       MYANMAR SIGN VISARGA",
text! "1039..103A    ; XID_Continue # Mn   [2] MYANMAR SIGN VIRAMA..MYANMAR SIGN ASAT",
text! "103B..103C    ; XID_Continue # Mc   [2] MYANMAR CONSONANT SIGN MEDIAL YA..MYANMAR CONSONANT SIGN MEDIAL RA",
text! "103D..103E    ; XID_Continue # Mn   [2] MYANMAR CONSONANT SIGN MEDIAL WA..MYANMAR CONSONANT SIGN MEDIAL HA",
text! "103F          ; XID_Continue # Lo       MYANMAR LETTER GREAT SA",
text! "1040..1049    ; XID_Continue # Nd  [10] MYANMAR DIGIT ZERO..MYANMAR DIGIT NINE",
text! "1050..1055    ; XID_Continue # Lo   [6] MYANMAR LETTER SHA..MYANMAR LETTER VOCALIC LL",
text! "1056..1057    ; XID_Continue # Mc   [2] MYANMAR VOWEL SIGN VOCALIC R..MYANMAR VOWEL SIGN VOCALIC RR",
text! "1058..1059    ; XID_Continue # Mn   [2] MYANMAR VOWEL SIGN VOCALIC L..MYANMAR VOWEL SIGN VOCALIC LL",
text! "105A..105D    ; XID_Continue # Lo   [4] MYANMAR LETTER MON NGA..MYANMAR LETTER MON BBE",
text! "105E..1060    ; XID_Continue # Mn   [3] MYANMAR CONSONANT SIGN MON MEDIAL NA..MYANMAR CONSONANT SIGN MON MEDIAL LA",
text! "1061          ; XID_Continue # Lo       MYANMAR LETTER SGAW KAREN SHA",
text! "1062..1064    ; XID_Continue # Mc   [3] MYANMAR VOWEL SIGN SGAW KAREN EU..MYANMAR TONE MARK SGAW KAREN KE PHO",
text! "1065..1066    ; XID_Continue # Lo   [2] MYANMAR LETTER WESTERN PWO KAREN THA..MYANMAR LETTER WESTERN PWO KAREN PWA",
text! "1067..106D    ; XID_Continue # Mc   [7] MYANMAR VOWEL SIGN WESTERN PWO KAREN EU..MYANMAR SIGN WESTERN PWO KAREN TONE-5",
text! "106E..1070    ; XID_Continue # Lo   [3] MYANMAR LETTER EASTERN PWO KAREN NNA..MYANMAR LETTER EASTERN PWO KAREN GHWA",
text! "1071..1074    ; XID_Continue # Mn   [4] MYANMAR VOWEL SIGN GEBA KAREN I..MYANMAR VOWEL SIGN KAYAH EE",
text! "1075..1081    ; XID_Continue # Lo  [13] MYANMAR LETTER SHAN KA..MYANMAR LETTER SHAN HA",
text! "1082          ; XID_Continue # Mn       MYANMAR CONSONANT SIGN SHAN MEDIAL WA",
text! "1083..1084    ; XID_Continue # Mc   [2] MYANMAR VOWEL SIGN SHAN AA..MYANMAR VOWEL SIGN SHAN E",
text! "1085..1086    ; XID_Continue # Mn   [2] MYANMAR VOWEL SIGN SHAN E ABOVE..MYANMAR VOWEL SIGN SHAN FINAL Y",
text! "1087..108C    ; XID_Continue # Mc   [6] MYANMAR SIGN SHAN TONE-2..MYANMAR SIGN SHAN COUNCIL TONE-3",
text! "108D          ; XID_Continue # Mn       MYANMAR SIGN SHAN COUNCIL EMPHATIC TONE",
text! "108E          ; XID_Continue # Lo       MYANMAR LETTER RUMAI PALAUNG FA",
text! "108F          ; XID_Continue # Mc       MYANMAR SIGN RUMAI PALAUNG TONE-5",
text! "1090..1099    ; XID_Continue # Nd  [10] MYANMAR SHAN DIGIT ZERO..MYANMAR SHAN DIGIT NINE",
text! "109A..109C    ; XID_Continue # Mc   [3] MYANMAR SIGN KHAMTI TONE-1..MYANMAR VOWEL SIGN AITON A",
text! "109D          ; XID_Continue # Mn       MYANMAR VOWEL SIGN AITON AI",
text! "10A0..10C5    ; XID_Continue # L&  [38] GEORGIAN CAPITAL LETTER AN..GEORGIAN CAPITAL LETTER HOE",
text! "10C7          ; XID_Continue # L&       GEORGIAN CAPITAL LETTER YN",
text! "10CD          ; XID_Continue # L&       GEORGIAN CAPITAL LETTER AEN",
text! "10D0..10FA    ; XID_Continue # L&  [43] GEORGIAN LETTER AN..GEORGIAN LETTER AIN",
text! "10FC          ; XID_Continue # Lm       MODIFIER LETTER GEORGIAN NAR",
text! "10FD..10FF    ; XID_Continue # L&   [3] GEORGIAN LETTER AEN..GEORGIAN LETTER LABIAL SIGN",
text! "1100..1248    ; XID_Continue # Lo [329] HANGUL CHOSEONG KIYEOK..ETHIOPIC SYLLABLE QWA",
text! "124A..124D    ; XID_Continue # Lo   [4] ETHIOPIC SYLLABLE QWI..ETHIOPIC SYLLABLE QWE",
text! "1250..1256    ; XID_Continue # Lo   [7] ETHIOPIC SYLLABLE QHA..ETHIOPIC SYLLABLE QHO",
text! "1258          ; XID_Continue # Lo       ETHIOPIC SYLLABLE QHWA",
text! "125A..125D    ; XID_Continue # Lo   [4] ETHIOPIC SYLLABLE QHWI..ETHIOPIC SYLLABLE QHWE",
text! "1260..1288    ; XID_Continue # Lo  [41] ETHIOPIC SYLLABLE BA..ETHIOPIC SYLLABLE XWA",
text! "128A..128D    ; XID_Continue # Lo   [4] ETHIOPIC SYLLABLE XWI..ETHIOPIC SYLLABLE XWE",
text! "1290..12B0    ; XID_Continue # Lo  [33] ETHIOPIC SYLLABLE NA..ETHIOPIC SYLLABLE KWA"]

/-- lines 9665-9728 -/
def derivedCore151 : List Nat := [
text! "12B2..12B5    ; XID_Continue # Lo   [4] ETHIOPIC SYLLABLE KWI..ETHIOPIC SYLLABLE KWE",
text! "12B8..12BE    ; XID_Continue # Lo   [7] ETHIOPIC SYLLABLE KXA..ETHIOPIC SYLLABLE KXO",
text! "12C0          ; XID_Continue # Lo       ETHIOPIC SYLLABLE KXWA",
text! "12C2..12C5    ; XID_Continue # Lo   [4] ETHIOPIC SYLLABLE KXWI..ETHIOPIC SYLLABLE KXWE",
text! "12C8..12D6    ; XID_Continue # Lo  [15] ETHIOPIC SYLLABLE WA..ETHIOPIC SYLLABLE PHARYNGEAL O",
text! "12D8..1310    ; XID_Continue # Lo  [57] ETHIOPIC SYLLABLE ZA..ETHIOPIC SYLLABLE GWA",
text! "1312..1315    ; XID_Continue # Lo   [4] ETHIOPIC SYLLABLE GWI..ETHIOPIC SYLLABLE GWE",
text! "1318..135A    ; XID_Continue # Lo  [67] ETHIOPIC SYLLABLE GGA..ETHIOPIC SYLLABLE FYA",
text! "135D..135F    ; XID_Continue # Mn   [3] ETHIOPIC COMBINING GEMINATION AND VOWEL LENGTH MARK..ETHIOPIC COMBINING GEMINATION MARK",
text! "1369..1371    ; XID_Continue # No   [9] ETHIOPIC DIGIT ONE..ETHIOPIC DIGIT NINE",
text! "1380..138F    ; XID_Continue # Lo  [16] ETHIOPIC SYLLABLE SEBATBEIT MWA..ETHIOPIC SYLLABLE PWE",
text! "13A0..13F5    ; XID_Continue # L&  [86] CHEROKEE LETTER A..CHEROKEE LETTER MV",
text! "13F8..13FD    ; XID_Continue # L&   [6] CHEROKEE SMALL LETTER YE..CHEROKEE SMALL LETTER MV",
text! "1401..166C    ; XID_Continue # Lo [620] CANADIAN SYLLABICS E..CANADIAN SYLLABICS CARRIER TTSA",
text! "166F..167F    ; XID_Continue # Lo  [17] CANADIAN SYLLABICS QAI..CANADIAN SYLLABICS BLACKFOOT W",
text! "1681..169A    ; XID_Continue # Lo  [26] OGHAM LETTER BEITH..OGHAM LETTER PEITH",
text! "16A0..16EA    ; XID_Continue # Lo  [75] RUNIC LETTER FEHU FEOH FE F..RUNIC LETTER X",
text! "16EE..16F0    ; XID_Continue # Nl   [3] RUNIC ARLAUG SYMBOL..RUNIC BELGTHOR SYMBOL",
text! "16F1..16F8    ; XID_Continue # Lo   [8] RUNIC LETTER K..RUNIC LETTER FRANKS CASKET AESC",
text! "1700..1711    ; XID_Continue # Lo  [18] TAGALOG LETTER A..TAGALOG LETTER HA",
text! "1712..1714    ; XID_Continue # Mn   [3] TAGALOG VOWEL SIGN I..TAGALOG SIGN VIRAMA",
text! "1715          ; XID_Continue # Mc       TAGALOG SIGN PAMUDPOD",
text! "171F..1731    ; XID_Continue # Lo  [19] TAGALOG LETTER ARCHAIC RA..HANUNOO LETTER HA",
text! "1732..1733    ; XID_Continue # Mn   [2] HANUNOO VOWEL SIGN I..HANUNOO VOWEL SIGN U",
text! "1734          ; XID_Continue # Mc       HANUNOO SIGN PAMUDPOD",
text! "1740..1751    ; XID_Continue # Lo  [18] BUHID LETTER A..BUHID LETTER HA",
text! "1752..1753    ; XID_Continue # Mn   [2] BUHID VOWEL SIGN I..BUHID VOWEL SIGN U",
text! "1760..176C    ; XID_Continue # Lo  [13] TAGBANWA LETTER A..TAGBANWA LETTER YA",
text! "176E..1770    ; XID_Continue # Lo   [3] TAGBANWA LETTER LA..TAGBANWA LETTER SA",
text! "1772..1773    ; XID_Continue # Mn   [2] TAGBANWA VOWEL SIGN I..TAGBANWA VOWEL SIGN U",
text! "1780..17B3    ; XID_Continue # Lo  [52] KHMER LETTER KA..KHMER INDEPENDENT VOWEL QAU",
text! "17B4..17B5    ; XID_Continue # Mn   [2] KHMER VOWEL INHERENT AQ..KHMER VOWEL INHERENT AA",
text! "17B6          ; XID_Continue # Mc       KHMER VOWEL SIGN AA",
text! "17B7..17BD    ; XID_Continue # Mn   [7] KHMER VOWEL SIGN I..KHMER VOWEL SIGN UA",
text! "17BE..17C5    ; XID_Continue # Mc   [8] KHMER VOWEL SIGN OE..KHMER VOWEL SIGN AU",
text! "17C6          ; XID_Continue # Mn       KHMER SIGN NIKAHIT",
text! "17C7..17C8    ; XID_Continue # Mc   [2] KHMER SIGN REAHMUK..KHMER SIGN YUUKALEAPINTU",
text! "17C9..17D3    ; XID_Continue # Mn  [11] KHMER SIGN MUUSIKATOAN..KHMER SIGN BATHAMASAT",
text! "17D7          ; XID_Continue # Lm       KHMER SIGN LEK TOO",
text! "17DC          ; XID_Continue # Lo       KHMER SIGN AVAKRAHASANYA",
text! "17DD          ; XID_Continue # Mn       KHMER SIGN ATTHACAN",
text! "17E0..17E9    ; XID_Continue # Nd  [10] KHMER DIGIT ZERO..KHMER DIGIT NINE",
text! "180B..180D    ; XID_Continue # Mn   [3] MONGOLIAN FREE VARIATION SELECTOR ONE..MONGOLIAN FREE VARIATION SELECTOR THREE",
text! "180F          ; XID_Continue # Mn       MONGOLIAN FREE VARIATION SELECTOR FOUR",
text! "1810..1819    ; XID_Continue # Nd  [10] MONGOLIAN DIGIT ZERO..MONGOLIAN DIGIT NINE",
text! "1820..1842    ; XID_Continue # Lo  [35] MONGOLIAN LETTER A..MONGOLIAN LETTER CHI",
text! "1843          ; XID_Continue # Lm       MONGOLIAN LETTER TODO LONG VOWEL SIGN",
text! "1844..1878    ; XID_Continue # Lo  [53] MONGOLIAN LETTER TODO E..MONGOLIAN LETTER CHA WITH TWO DOTS",
text! "1880..1884    ; XID_Continue # Lo   [5] MONGOLIAN LETTER ALI GALI ANUSVARA ONE..MONGOLIAN LETTER ALI GALI INVERTED UBADAMA",
text! "1885..1886    ; XID_Continue # Mn   [2] MONGOLIAN LETTER ALI GALI BALUDA..MONGOLIAN LETTER ALI GALI THREE BALUDA",
text! "1887..18A8    ; XID_Continue # Lo  [34] MONGOLIAN LETTER ALI GALI A..MONGOLIAN LETTER MANCHU ALI GALI BHA",
text! "18A9          ; XID_Continue # Mn       MONGOLIAN LETTER ALI GALI DAGALGA",
text! "18AA          ; XID_Continue # Lo       MONGOLIAN LETTER MANCHU ALI GALI LHA",
text! "18B0..18F5    ; XID_Continue # Lo  [70] CANADIAN SYLLABICS OY..CANADIAN SYLLABICS CARRIER DENTAL S",
text! "1900..191E    ; XID_Continue # Lo  [31] LIMBU VOWEL-CARRIER LETTER..LIMBU LETTER TRA",
text! "1920..1922    ; XID_Continue # Mn   [3] LIMBU VOWEL SIGN A..LIMBU VOWEL SIGN U",
text! "1923..1926    ; XID_Continue # Mc   [4] LIMBU VOWEL SIGN EE..LIMBU VOWEL SIGN AU",
text! "1927..1928    ; XID_Continue # Mn   [2] LIMBU VOWEL SIGN E..LIMBU VOWEL SIGN O",
text! "1929..192B    ; XID_Continue # Mc   [3] LIMBU SUBJOINED LETTER YA..LIMBU SUBJOINED LETTER WA",
text! "1930..1931    ; XID_Continue # Mc   [2] LIMBU SMALL LETTER KA..LIMBU SMALL LETTER NGA",
text! "1932          ; XID_Continue # Mn       LIMBU SMALL LETTER ANUSVARA",
text! "1933..1938    ; XID_Continue # Mc   [6] LIMBU SMALL LETTER TA..LIMBU SMALL LETTER LA",
text! "1939..193B    ; XID_Continue # Mn   [3] LIMBU SIGN MUKPHRENG..LIMBU SIGN SA-I",
text! "1946..194F    ; XID_Continue # Nd  [10] LIMBU DIGIT ZERO..LIMBU DIGIT NINE"]

/-- lines 9729-9792 -/
def derivedCore152 : List Nat := [
text! "1950..196D    ; XID_Continue # Lo  [30] TAI LE LETTER KA..TAI LE LETTER AI",
text! "1970..1974    ; XID_Continue # Lo   [5] TAI LE LETTER TONE-2..TAI LE LETTER TONE-6",
text! "1980..19AB    ; XID_Continue # Lo  [44] NEW TAI LUE LETTER HIGH QA..NEW TAI LUE LETTER LOW SUA",
text! "19B0..19C9    ; XID_Continue # Lo  [26] NEW TAI LUE VOWEL SIGN VOWEL SHORTENER..NEW TAI LUE TONE MARK-2",
text! "19D0..19D9    ; XID_Continue # Nd  [10] NEW TAI LUE DIGIT ZERO..NEW TAI LUE DIGIT NINE",
text! "19DA          ; XID_Continue # No       NEW TAI LUE THAM DIGIT ONE",
text! "1A00..1A16    ; XID_Continue # Lo  [23] BUGINESE LETTER KA..BUGINESE LETTER HA",
text! "1A17..1A18    ; XID_Continue # Mn   [2] BUGINESE VOWEL SIGN I..BUGINESE VOWEL SIGN U",
text! "1A19..1A1A    ; XID_Continue # Mc   [2] BUGINESE VOWEL SIGN E..BUGINESE VOWEL SIGN O",
text! "1A1B          ; XID_Continue # Mn       BUGINESE VOWEL SIGN AE",
text! "1A20..1A54    ; XID_Continue # Lo  [53] TAI THAM LETTER HIGH KA..TAI THAM LETTER GREAT SA",
text! "1A55          ; XID_Continue # Mc       TAI THAM CONSONANT SIGN MEDIAL RA",
text! "1A56          ; XID_Continue # Mn       TAI THAM CONSONANT SIGN MEDIAL LA",
text! "1A57          ; XID_Continue # Mc       TAI THAM CONSONANT SIGN LA TANG LAI",
text! "1A58..1A5E    ; XID_Continue # Mn   [7] TAI THAM SIGN MAI KANG LAI..TAI THAM CONSONANT SIGN SA",
text! "1A60          ; XID_Continue # Mn       TAI THAM SIGN SAKOT",
text! "1A61          ; XID_Continue # Mc       TAI THAM VOWEL SIGN A",
text! "1A62          ; XID_Continue # Mn       TAI THAM VOWEL SIGN MAI SAT",
text! "1A63..1A64    ; XID_Continue # Mc   [2] TAI THAM VOWEL SIGN AA..TAI THAM VOWEL SIGN TALL AA",
text! "1A65..1A6C    ; XID_Continue # Mn   [8] TAI THAM VOWEL SIGN I..TAI THAM VOWEL SIGN OA BELOW",
text! "1A6D..1A72    ; XID_Continue # Mc   [6] TAI THAM VOWEL SIGN OY..TAI THAM VOWEL SIGN THAM AI",
text! "1A73..1A7C    ; XID_Continue # Mn  [10] TAI THAM VOWEL SIGN OA ABOVE..TAI THAM SIGN KHUEN-LUE KARAN",
text! "1A7F          ; XID_Continue # Mn       TAI THAM COMBINING CRYPTOGRAMMIC DOT",
text! "1A80..1A89    ; XID_Continue # Nd  [10] TAI THAM HORA DIGIT ZERO..TAI THAM HORA DIGIT NINE",
text! "1A90..1A99    ; XID_Continue # Nd  [10] TAI THAM THAM DIGIT ZERO..TAI THAM THAM DIGIT NINE",
text! "1AA7          ; XID_Continue # Lm       TAI THAM SIGN MAI YAMOK",
text! "1AB0..1ABD    ; XID_Continue # Mn  [14] COMBINING DOUBLED CIRCUMFLEX ACCENT..COMBINING PARENTHESES BELOW",
text! "1ABF..1ADD    ; XID_Continue # Mn  [31] COMBINING LATIN SMALL LETTER W BELOW..COMBINING DOT-AND-RING BELOW",
text! "1AE0..1AEB    ; XID_Continue # Mn  [12] COMBINING LEFT TACK ABOVE..COMBINING DOUBLE RIGHTWARDS ARROW ABOVE",
text! "1B00..1B03    ; XID_Continue # Mn   [4] BALINESE SIGN ULU RICEM..BALINESE SIGN SURANG",
text! "1B04          ; XID_Continue # Mc       BALINESE SIGN BISAH",
text! "1B05..1B33    ; XID_Continue # Lo  [47] BALINESE LETTER AKARA..BALINESE LETTER HA",
text! "1B34          ; XID_Continue # Mn       BALINESE SIGN REREKAN",
text! "1B35          ; XID_Continue # Mc       BALINESE VOWEL SIGN TEDUNG",
text! "1B36..1B3A    ; XID_Continue # Mn   [5] BALINESE VOWEL SIGN ULU..BALINESE VOWEL SIGN RA REPA",
text! "1B3B          ; XID_Continue # Mc       BALINESE VOWEL SIGN RA REPA TEDUNG",
text! "1B3C          ; XID_Continue # Mn       BALINESE VOWEL SIGN LA LENGA",
text! "1B3D..1B41    ; XID_Continue # Mc   [5] BALINESE VOWEL SIGN LA LENGA TEDUNG..BALINESE VOWEL SIGN TALING REPA TEDUNG",
text! "1B42          ; XID_Continue # Mn       BALINESE VOWEL SIGN PEPET",
text! "1B43..1B44    ; XID_Continue # Mc   [2] BALINESE VOWEL SIGN PEPET TEDUNG..BALINESE ADEG ADEG",
text! "1B45..1B4C    ; XID_Continue # Lo   [8] BALINESE LETTER KAF SASAK..BALINESE LETTER ARCHAIC JNYA",
text! "1B50..1B59    ; XID_Continue # Nd  [10] BALINESE DIGIT ZERO..BALINESE DIGIT NINE",
text! "1B6B..1B73    ; XID_Continue # Mn   [9] BALINESE MUSICAL SYMBOL COMBINING TEGEH..BALINESE MUSICAL SYMBOL COMBINING GONG",
text! "1B80..1B81    ; XID_Continue # Mn   [2] SUNDANESE SIGN PANYECEK..SUNDANESE SIGN PANGLAYAR",
text! "1B82          ; XID_Continue # Mc       SUNDANESE SIGN PANGWISAD",
text! "1B83..1BA0    ; XID_Continue # Lo  [30] SUNDANESE LETTER A..SUNDANESE LETTER HA",
text! "1BA1          ; XID_Continue # Mc       SUNDANESE CONSONANT SIGN PAMINGKAL",
text! "1BA2..1BA5    ; XID_Continue # Mn   [4] SUNDANESE CONSONANT SIGN PANYAKRA..SUNDANESE VOWEL SIGN PANYUKU",
text! "1BA6..1BA7    ; XID_Continue # Mc   [2] SUNDANESE VOWEL SIGN PANAELAENG..SUNDANESE VOWEL SIGN PANOLONG",
text! "1BA8..1BA9    ; XID_Continue # Mn   [2] SUNDANESE VOWEL SIGN PAMEPET..SUNDANESE VOWEL SIGN PANEULEUNG",
text! "1BAA          ; XID_Continue # Mc       SUNDANESE SIGN PAMAAEH",
text! "1BAB..1BAD    ; XID_Continue # Mn   [3] SUNDANESE SIGN VIRAMA..SUNDANESE CONSONANT SIGN PASANGAN WA",
text! "1BAE..1BAF    ; XID_Continue # Lo   [2] SUNDANESE LETTER KHA..SUNDANESE LETTER SYA",
text! "1BB0..1BB9    ; XID_Continue # Nd  [10] SUNDANESE DIGIT ZERO..SUNDANESE DIGIT NINE",
text! "1BBA..1BE5    ; XID_Continue # Lo  [44] SUNDANESE AVAGRAHA..BATAK LETTER U",
text! "1BE6          ; XID_Continue # Mn       BATAK SIGN TOMPI",
text! "1BE7          ; XID_Continue # Mc       BATAK VOWEL SIGN E",
text! "1BE8..1BE9    ; XID_Continue # Mn   [2] BATAK VOWEL SIGN PAKPAK E..BATAK VOWEL SIGN EE",
text! "1BEA..1BEC    ; XID_Continue # Mc   [3] BATAK VOWEL SIGN I..BATAK VOWEL SIGN O",
text! "1BED          ; XID_Continue # Mn       BATAK VOWEL SIGN KARO O",
text! "1BEE          ; XID_Continue # Mc       BATAK VOWEL SIGN U",
text! "1BEF..1BF1    ; XID_Continue # Mn   [3] BATAK VOWEL SIGN U FOR SIMALUNGUN SA..BATAK CONSONANT SIGN H",
text! "1BF2..1BF3    ; XID_Continue # Mc   [2] BATAK PANGOLAT..BATAK PANONGONAN",
text! "1C00..1C23    ; XID_Continue # Lo  [36] LEPCHA LETTER KA..LEPCHA LETTER A"]

/-- lines 9793-9856 -/
def derivedCore153 : List Nat := [
text! "1C24..1C2B    ; XID_Continue # Mc   [8] LEPCHA SUBJOINED LETTER YA..LEPCHA VOWEL SIGN UU",
text! "1C2C..1C33    ; XID_Continue # Mn   [8] LEPCHA VOWEL SIGN E..LEPCHA CONSONANT SIGN T",
text! "1C34..1C35    ; XID_Continue # Mc   [2] LEPCHA CONSONANT SIGN NYIN-DO..LEPCHA CONSONANT SIGN KANG",
text! "1C36..1C37    ; XID_Continue # Mn   [2] LEPCHA SIGN RAN..LEPCHA SIGN NUKTA",
text! "1C40..1C49    ; XID_Continue # Nd  [10] LEPCHA DIGIT ZERO..LEPCHA DIGIT NINE",
text! "1C4D..1C4F    ; XID_Continue # Lo   [3] LEPCHA LETTER TTA..LEPCHA LETTER DDA",
text! "1C50..1C59    ; XID_Continue # Nd  [10] OL CHIKI DIGIT ZERO..OL CHIKI DIGIT NINE",
text! "1C5A..1C77    ; XID_Continue # Lo  [30] OL CHIKI LETTER LA..OL CHIKI LETTER OH",
text! "1C78..1C7D    ; XID_Continue # Lm   [6] OL CHIKI MU TTUDDAG..OL CHIKI AHAD",
text! "1C80..1C8A    ; XID_Continue # L&  [11] CYRILLIC SMALL LETTER ROUNDED VE..CYRILLIC SMALL LETTER TJE",
text! "1C90..1CBA    ; XID_Continue # L&  [43] GEORGIAN MTAVRULI CAPITAL LETTER AN..GEORGIAN MTAVRULI CAPITAL LETTER AIN",
text! "1CBD..1CBF    ; XID_Continue # L&   [3] GEORGIAN MTAVRULI CAPITAL LETTER AEN..GEORGIAN MTAVRULI CAPITAL LETTER LABIAL SIGN",
text! "1CD0..1CD2    ; XID_Continue # Mn   [3] VEDIC TONE KARSHANA..VEDIC TONE PRENKHA",
text! "1CD4..1CE0    ; XID_Continue # Mn  [13] VEDIC SIGN YAJURVEDIC MIDLINE SVARITA..VEDIC TONE RIGVEDIC KASHMIRI INDEPENDENT SVARITA",
text! "1CE1          ; XID_Continue # Mc       VEDIC TONE ATHARVAVEDIC INDEPENDENT SVARITA",
text! "1CE2..1CE8    ; XID_Continue # Mn   [7] VEDIC SIGN VISARGA SVARITA..VEDIC SIGN VISARGA ANUDATTA WITH TAIL",
text! "1CE9..1CEC    ; XID_Continue # Lo   [4] VEDIC SIGN ANUSVARA ANTARGOMUKHA..VEDIC SIGN ANUSVARA VAMAGOMUKHA WITH TAIL",
text! "1CED          ; XID_Continue # Mn       VEDIC SIGN TIRYAK",
text! "1CEE..1CF3    ; XID_Continue # Lo   [6] VEDIC SIGN HEXIFORM LONG ANUSVARA..VEDIC SIGN ROTATED ARDHAVISARGA",
text! "1CF4          ; XID_Continue # Mn       VEDIC TONE CANDRA ABOVE",
text! "1CF5..1CF6    ; XID_Continue # Lo   [2] VEDIC SIGN JIHVAMULIYA..VEDIC SIGN UPADHMANIYA",
text! "1CF7          ; XID_Continue # Mc       VEDIC SIGN ATIKRAMA",
text! "1CF8..1CF9    ; XID_Continue # Mn   [2] VEDIC TONE RING ABOVE..VEDIC TONE DOUBLE RING ABOVE",
text! "1CFA          ; XID_Continue # Lo       VEDIC SIGN DOUBLE ANUSVARA ANTARGOMUKHA",
text! "1D00..1D2B    ; XID_Continue # L&  [44] LATIN LETTER SMALL CAPITAL A..CYRILLIC LETTER SMALL CAPITAL EL",
text! "1D2C..1D6A    ; XID_Continue # Lm  [63] MODIFIER LETTER CAPITAL A..GREEK SUBSCRIPT SMALL LETTER CHI",
text! "1D6B..1D77    ; XID_Continue # L&  [13] LATIN SMALL LETTER UE..LATIN SMALL LETTER TURNED G",
text! "1D78          ; XID_Continue # Lm       MODIFIER LETTER CYRILLIC EN",
text! "1D79..1D9A    ; XID_Continue # L&  [34] LATIN SMALL LETTER INSULAR G..LATIN SMALL LETTER EZH WITH RETROFLEX HOOK",
text! "1D9B..1DBF    ; XID_Continue # Lm  [37] MODIFIER LETTER SMALL TURNED ALPHA..MODIFIER LETTER SMALL THETA",
text! "1DC0..1DFF    ; XID_Continue # Mn  [64] COMBINING DOTTED GRAVE ACCENT..COMBINING RIGHT ARROWHEAD AND DOWN ARROWHEAD BELOW",
text! "1E00..1F15    ; XID_Continue # L& [278] LATIN CAPITAL LETTER A WITH RING BELOW..GREEK SMALL LETTER EPSILON WITH DASIA AND OXIA",
text! "1F18..1F1D    ; XID_Continue # L&   [6] GREEK CAPITAL LETTER EPSILON WITH PSILI..GREEK CAPITAL LETTER EPSILON WITH DASIA AND OXIA",
text! "1F20..1F45    ; XID_Continue # L&  [38] GREEK SMALL LETTER ETA WITH PSILI..GREEK SMALL LETTER OMICRON WITH DASIA AND OXIA",
text! "1F48..1F4D    ; XID_Continue # L&   [6] GREEK CAPITAL LETTER OMICRON WITH PSILI..GREEK CAPITAL LETTER OMICRON WITH DASIA AND OXIA",
text! "1F50..1F57    ; XID_Continue # L&   [8] GREEK SMALL LETTER UPSILON WITH PSILI..GREEK SMALL LETTER UPSILON WITH DASIA AND PERISPOMENI",
text! "1F59          ; XID_Continue # L&       GREEK CAPITAL LETTER UPSILON WITH DASIA",
text! "1F5B          ; XID_Continue # L&       GREEK CAPITAL LETTER UPSILON WITH DASIA AND VARIA",
text! "1F5D          ; XID_Continue # L&       GREEK CAPITAL LETTER UPSILON WITH DASIA AND OXIA",
text! "1F5F..1F7D    ; XID_Continue # L&  [31] GREEK CAPITAL LETTER UPSILON WITH DASIA AND PERISPOMENI..GREEK SMALL LETTER OMEGA WITH OXIA",
text! "1F80..1FB4    ; XID_Continue # L&  [53] GREEK SMALL LETTER ALPHA WITH PSILI AND YPOGEGRAMMENI..GREEK SMALL LETTER ALPHA WITH OXIA AND YPOGEGRAMMENI",
text! "1FB6..1FBC    ; XID_Continue # L&   [7] GREEK SMALL LETTER ALPHA WITH PERISPOMENI..GREEK CAPITAL LETTER ALPHA WITH PROSGEGRAMMENI",
text! "1FBE          ; XID_Continue # L&       GREEK PROSGEGRAMMENI",
text! "1FC2..1FC4    ; XID_Continue # L&   [3] GREEK SMALL LETTER ETA WITH VARIA AND YPOGEGRAMMENI..GREEK SMALL LETTER ETA WITH OXIA AND YPOGEGRAMMENI",
text! "1FC6..1FCC    ; XID_Continue # L&   [7] GREEK SMALL LETTER ETA WITH PERISPOMENI..GREEK CAPITAL LETTER ETA WITH PROSGEGRAMMENI",
text! "1FD0..1FD3    ; XID_Continue # L&   [4] GREEK SMALL LETTER IOTA WITH VRACHY..GREEK SMALL LETTER IOTA WITH DIALYTIKA AND OXIA",
text! "1FD6..1FDB    ; XID_Continue # L&   [6] GREEK SMALL LETTER IOTA WITH PERISPOMENI..GREEK CAPITAL LETTER IOTA WITH OXIA",
text! "1FE0..1FEC    ; XID_Continue # L&  [13] GREEK SMALL LETTER UPSILON WITH VRACHY..GREEK CAPITAL LETTER RHO WITH DASIA",
text! "1FF2..1FF4    ; XID_Continue # L&   [3] GREEK SMALL LETTER OMEGA WITH VARIA AND YPOGEGRAMMENI..GREEK SMALL LETTER OMEGA WITH OXIA AND YPOGEGRAMMENI",
text! "1FF6..1FFC    ; XID_Continue # L&   [7] GREEK SMALL LETTER OMEGA WITH PERISPOMENI..GREEK CAPITAL LETTER OMEGA WITH PROSGEGRAMMENI",
text! "200C..200D    ; XID_Continue # Cf   [2] ZERO WIDTH NON-JOINER..ZERO WIDTH JOINER",
text! "203F..2040    ; XID_Continue # Pc   [2] UNDERTIE..CHARACTER TIE",
text! "2054          ; XID_Continue # Pc       INVERTED UNDERTIE",
text! "2071          ; XID_Continue # Lm       SUPERSCRIPT LATIN SMALL LETTER I",
text! "207F          ; XID_Continue # Lm       SUPERSCRIPT LATIN SMALL LETTER N",
text! "2090..209C    ; XID_Continue # Lm  [13] LATIN SUBSCRIPT SMALL LETTER A..LATIN SUBSCRIPT SMALL LETTER T",
text! "20D0..20DC    ; XID_Continue # Mn  [13] COMBINING LEFT HARPOON ABOVE..COMBINING FOUR DOTS ABOVE",
text! "20E1          ; XID_Continue # Mn       COMBINING LEFT RIGHT ARROW ABOVE",
text! "20E5..20F0    ; XID_Continue # Mn  [12] COMBINING REVERSE SOLIDUS OVERLAY..COMBINING ASTERISK ABOVE",
text! "2102          ; XID_Continue # L&       DOUBLE-STRUCK CAPITAL C",
text! "2107          ; XID_Continue # L&       EULER CONSTANT",
text! "210A..2113    ; XID_Continue # L&  [10] SCRIPT SMALL G..SCRIPT SMALL L",
text! "2115          ; XID_Continue # L&       DOUBLE-STRUCK CAPITAL N",
text! "2118          ; XID_Continue # Sm       SCRIPT CAPITAL P"]

/-- lines 9857-9920 -/
def derivedCore154 : List Nat := [
text! "2119..211D    ; XID_Continue # L&   [5] DOUBLE-STRUCK CAPITAL P..DOUBLE-STRUCK CAPITAL R",
text! "2124          ; XID_Continue # L&       DOUBLE-STRUCK CAPITAL Z",
text! "2126          ; XID_Continue # L&       OHM SIGN",
text! "2128          ; XID_Continue # L&       BLACK-LETTER CAPITAL Z",
text! "212A..212D    ; XID_Continue # L&   [4] KELVIN SIGN..BLACK-LETTER CAPITAL C",
text! "212E          ; XID_Continue # So       ESTIMATED SYMBOL",
text! "212F..2134    ; XID_Continue # L&   [6] SCRIPT SMALL E..SCRIPT SMALL O",
text! "2135..2138    ; XID_Continue # Lo   [4] ALEF SYMBOL..DALET SYMBOL",
text! "2139          ; XID_Continue # L&       INFORMATION SOURCE",
text! "213C..213F    ; XID_Continue # L&   [4] DOUBLE-STRUCK SMALL PI..DOUBLE-STRUCK CAPITAL PI",
text! "2145..2149    ; XID_Continue # L&   [5] DOUBLE-STRUCK ITALIC CAPITAL D..DOUBLE-STRUCK ITALIC SMALL J",
text! "214E          ; XID_Continue # L&       TURNED SMALL F",
text! "2160..2182    ; XID_Continue # Nl  [35] ROMAN NUMERAL ONE..ROMAN NUMERAL TEN THOUSAND",
text! "2183..2184    ; XID_Continue # L&   [2] ROMAN NUMERAL REVERSED ONE HUNDRED..LATIN SMALL LETTER REVERSED C",
text! "2185..2188    ; XID_Continue # Nl   [4] ROMAN NUMERAL SIX LATE FORM..ROMAN NUMERAL ONE HUNDRED THOUSAND",
text! "2C00..2C7B    ; XID_Continue # L& [124] GLAGOLITIC CAPITAL LETTER AZU..LATIN LETTER SMALL CAPITAL TURNED E",
text! "2C7C..2C7D    ; XID_Continue # Lm   [2] LATIN SUBSCRIPT SMALL LETTER J..MODIFIER LETTER CAPITAL V",
text! "2C7E..2CE4    ; XID_Continue # L& [103] LATIN CAPITAL LETTER S WITH SWASH TAIL..COPTIC SYMBOL KAI",
text! "2CEB..2CEE    ; XID_Continue # L&   [4] COPTIC CAPITAL LETTER CRYPTOGRAMMIC SHEI..COPTIC SMALL LETTER CRYPTOGRAMMIC GANGIA",
text! "2CEF..2CF1    ; XID_Continue # Mn   [3] COPTIC COMBINING NI ABOVE..COPTIC COMBINING SPIRITUS LENIS",
text! "2CF2..2CF3    ; XID_Continue # L&   [2] COPTIC CAPITAL LETTER BOHAIRIC KHEI..COPTIC SMALL LETTER BOHAIRIC KHEI",
text! "2D00..2D25    ; XID_Continue # L&  [38] GEORGIAN SMALL LETTER AN..GEORGIAN SMALL LETTER HOE",
text! "2D27          ; XID_Continue # L&       GEORGIAN SMALL LETTER YN",
text! "2D2D          ; XID_Continue # L&       GEORGIAN SMALL LETTER AEN",
text! "2D30..2D67    ; XID_Continue # Lo  [56] TIFINAGH LETTER YA..TIFINAGH LETTER YO",
text! "2D6F          ; XID_Continue # Lm       TIFINAGH MODIFIER LETTER LABIALIZATION MARK",
text! "2D7F          ; XID_Continue # Mn       TIFINAGH CONSONANT JOINER",
text! "2D80..2D96    ; XID_Continue # Lo  [23] ETHIOPIC SYLLABLE LOA..ETHIOPIC SYLLABLE GGWE",
text! "2DA0..2DA6    ; XID_Continue # Lo   [7] ETHIOPIC SYLLABLE SSA..ETHIOPIC SYLLABLE SSO",
text! "2DA8..2DAE    ; XID_Continue # Lo   [7] ETHIOPIC SYLLABLE CCA..ETHIOPIC SYLLABLE CCO",
text! "2DB0..2DB6    ; XID_Continue # Lo   [7] ETHIOPIC SYLLABLE ZZA..ETHIOPIC SYLLABLE ZZO",
text! "2DB8..2DBE    ; XID_Continue # Lo   [7] ETHIOPIC SYLLABLE CCHA..ETHIOPIC SYLLABLE CCHO",
text! "2DC0..2DC6    ; XID_Continue # Lo   [7] ETHIOPIC SYLLABLE QYA..ETHIOPIC SYLLABLE QYO",
text! "2DC8..2DCE    ; XID_Continue # Lo   [7] ETHIOPIC SYLLABLE KYA..ETHIOPIC SYLLABLE KYO",
text! "2DD0..2DD6    ; XID_Continue # Lo   [7] ETHIOPIC SYLLABLE XYA..ETHIOPIC SYLLABLE XYO",
text! "2DD8..2DDE    ; XID_Continue # Lo   [7] ETHIOPIC SYLLABLE GYA..ETHIOPIC SYLLABLE GYO",
text! "2DE0..2DFF    ; XID_Continue # Mn  [32] COMBINING CYRILLIC LETTER BE..COMBINING CYRILLIC LETTER IOTIFIED BIG YUS",
text! "3005          ; XID_Continue # Lm       IDEOGRAPHIC ITERATION MARK",
text! "3006          ; XID_Continue # Lo       IDEOGRAPHIC CLOSING MARK",
text! "3007          ; XID_Continue # Nl       IDEOGRAPHIC NUMBER ZERO",
text! "3021..3029    ; XID_Continue # Nl   [9] HANGZHOU NUMERAL ONE..HANGZHOU NUMERAL NINE",
text! "302A..302D    ; XID_Continue # Mn   [4] IDEOGRAPHIC LEVEL TONE MARK..IDEOGRAPHIC ENTERING TONE MARK",
text! "302E..302F    ; XID_Continue # Mc   [2] HANGUL SINGLE DOT TONE MARK..HANGUL DOUBLE DOT TONE MARK",
text! "3031..3035    ; XID_Continue # Lm   [5] VERTICAL KANA REPEAT MARK..VERTICAL KANA REPEAT MARK LOWER HALF",
text! "3038..303A    ; XID_Continue # Nl   [3] HANGZHOU NUMERAL TEN..HANGZHOU NUMERAL THIRTY",
text! "303B          ; XID_Continue # Lm       VERTICAL IDEOGRAPHIC ITERATION MARK",
text! "303C          ; XID_Continue # Lo       MASU MARK",
text! "3041..3096    ; XID_Continue # Lo  [86] HIRAGANA LETTER SMALL A..HIRAGANA LETTER SMALL KE",
text! "3099..309A    ; XID_Continue # Mn   [2] COMBINING KATAKANA-HIRAGANA VOICED SOUND MARK..COMBINING KATAKANA-HIRAGANA SEMI-VOICED SOUND MARK",
text! "309D..309E    ; XID_Continue # Lm   [2] HIRAGANA ITERATION MARK..HIRAGANA VOICED ITERATION MARK",
text! "309F          ; XID_Continue # Lo       HIRAGANA DIGRAPH YORI",
text! "30A1..30FA    ; XID_Continue # Lo  [90] KATAKANA LETTER SMALL A..KATAKANA LETTER VO",
text! "30FB          ; XID_Continue # Po       KATAKANA MIDDLE DOT",
text! "30FC..30FE    ; XID_Continue # Lm   [3] KATAKANA-HIRAGANA PROLONGED SOUND MARK..KATAKANA VOICED ITERATION MARK",
text! "30FF          ; XID_Continue # Lo       KATAKANA DIGRAPH KOTO",
text! "3105..312F    ; XID_Continue # Lo  [43] BOPOMOFO LETTER B..BOPOMOFO LETTER NN",
text! "3131..318E    ; XID_Continue # Lo  [94] HANGUL LETTER KIYEOK..HANGUL LETTER ARAEAE",
text! "31A0..31BF    ; XID_Continue # Lo  [32] BOPOMOFO LETTER BU..BOPOMOFO LETTER AH",
text! "31F0..31FF    ; XID_Continue # Lo  [16] KATAKANA LETTER SMALL KU..KATAKANA LETTER SMALL RO",
text! "3400..4DBF    ; XID_Continue # Lo [6592] CJK UNIFIED IDEOGRAPH-3400..CJK UNIFIED IDEOGRAPH-4DBF",
text! "4E00..A014    ; XID_Continue # Lo [21013] CJK UNIFIED IDEOGRAPH-4E00..YI SYLLABLE E",
text! "A015          ; XID_Continue # Lm       YI SYLLABLE WU",
text! "A016..A48C    ; XID_Continue # Lo [1143] YI SYLLABLE BIT..YI SYLLABLE YYR",
text! "A4D0..A4F7    ; XID_Continue # Lo  [40] LISU LETTER BA..LISU LETTER OE"]

/-- lines 9921-9984 -/
def derivedCore155 : List Nat := [
text! "A4F8..A4FD    ; XID_Continue # Lm   [6] LISU LETTER TONE MYA TI..LISU LETTER TONE MYA JEU",
text! "A500..A60B    ; XID_Continue # Lo [268] VAI SYLLABLE EE..VAI SYLLABLE NG",
text! "A60C          ; XID_Continue # Lm       VAI SYLLABLE LENGTHENER",
text! "A610..A61F    ; XID_Continue # Lo  [16] VAI SYLLABLE NDOLE FA..VAI SYMBOL JONG",
text! "A620..A629    ; XID_Continue # Nd  [10] VAI DIGIT ZERO..VAI DIGIT NINE",
text! "A62A..A62B    ; XID_Continue # Lo   [2] VAI SYLLABLE NDOLE MA..VAI SYLLABLE NDOLE DO",
text! "A640..A66D    ; XID_Continue # L&  [46] CYRILLIC CAPITAL LETTER ZEMLYA..CYRILLIC SMALL LETTER DOUBLE MONOCULAR O",
text! "A66E          ; XID_Continue # Lo       CYRILLIC LETTER MULTIOCULAR O",
text! "A66F          ; XID_Continue # Mn       COMBINING CYRILLIC VZMET",
text! "A674..A67D    ; XID_Continue # Mn  [10] COMBINING CYRILLIC LETTER UKRAINIAN IE..COMBINING CYRILLIC PAYEROK",
text! "A67F          ; XID_Continue # Lm       CYRILLIC PAYEROK",
text! "A680..A69B    ; XID_Continue # L&  [28] CYRILLIC CAPITAL LETTER DWE..CYRILLIC SMALL LETTER CROSSED O",
text! "A69C..A69D    ; XID_Continue # Lm   [2] MODIFIER LETTER CYRILLIC HARD SIGN..MODIFIER LETTER CYRILLIC SOFT SIGN",
text! "A69E..A69F    ; XID_Continue # Mn   [2] COMBINING CYRILLIC LETTER EF..COMBINING CYRILLIC LETTER IOTIFIED E",
text! "A6A0..A6E5    ; XID_Continue # Lo  [70] BAMUM LETTER A..BAMUM LETTER KI",
text! "A6E6..A6EF    ; XID_Continue # Nl  [10] BAMUM LETTER MO..BAMUM LETTER KOGHOM",
text! "A6F0..A6F1    ; XID_Continue # Mn   [2] BAMUM COMBINING MARK KOQNDON..BAMUM COMBINING MARK TUKWENTIS",
text! "A717..A71F    ; XID_Continue # Lm   [9] MODIFIER LETTER DOT VERTICAL BAR..MODIFIER LETTER LOW INVERTED EXCLAMATION MARK",
text! "A722..A76F    ; XID_Continue # L&  [78] LATIN CAPITAL LETTER EGYPTOLOGICAL ALEF..LATIN SMALL LETTER CON",
text! "A770          ; XID_Continue # Lm       MODIFIER LETTER US",
text! "A771..A787    ; XID_Continue # L&  [23] LATIN SMALL LETTER DUM..LATIN SMALL LETTER INSULAR T",
text! "A788          ; XID_Continue # Lm       MODIFIER LETTER LOW CIRCUMFLEX ACCENT",
text! "A78B..A78E    ; XID_Continue # L&   [4] LATIN CAPITAL LETTER SALTILLO..LATIN SMALL LETTER L WITH RETROFLEX HOOK AND BELT",
text! "A78F          ; XID_Continue # Lo       LATIN LETTER SINOLOGICAL DOT",
text! "A790..A7DC    ; XID_Continue # L&  [77] LATIN CAPITAL LETTER N WITH DESCENDER..LATIN CAPITAL LETTER LAMBDA WITH STROKE",
text! "A7F1..A7F4    ; XID_Continue # Lm   [4] MODIFIER LETTER CAPITAL S..MODIFIER LETTER CAPITAL Q",
text! "A7F5..A7F6    ; XID_Continue # L&   [2] LATIN CAPITAL LETTER REVERSED HALF H..LATIN SMALL LETTER REVERSED HALF H",
text! "A7F7          ; XID_Continue # Lo       LATIN EPIGRAPHIC LETTER SIDEWAYS I",
text! "A7F8..A7F9    ; XID_Continue # Lm   [2] MODIFIER LETTER CAPITAL H WITH STROKE..MODIFIER LETTER SMALL LIGATURE OE",
text! "A7FA          ; XID_Continue # L&       LATIN LETTER SMALL CAPITAL TURNED M",
text! "A7FB..A801    ; XID_Continue # Lo   [7] LATIN EPIGRAPHIC LETTER REVERSED F..SYLOTI NAGRI LETTER I",
text! "A802          ; XID_Continue # Mn       SYLOTI NAGRI SIGN DVISVARA",
text! "A803..A805    ; XID_Continue # Lo   [3] SYLOTI NAGRI LETTER U..SYLOTI NAGRI LETTER O",
text! "A806          ; XID_Continue # Mn       SYLOTI NAGRI SIGN HASANTA",
text! "A807..A80A    ; XID_Continue # Lo   [4] SYLOTI NAGRI LETTER KO..SYLOTI NAGRI LETTER GHO",
text! "A80B          ; XID_Continue # Mn       SYLOTI NAGRI SIGN ANUSVARA",
text! "A80C..A822    ; XID_Continue # Lo  [23] SYLOTI NAGRI LETTER CO..SYLOTI NAGRI LETTER HO",
text! "A823..A824    ; XID_Continue # Mc   [2] SYLOTI NAGRI VOWEL SIGN A..SYLOTI NAGRI VOWEL SIGN I",
text! "A825..A826    ; XID_Continue # Mn   [2] SYLOTI NAGRI VOWEL SIGN U..SYLOTI NAGRI VOWEL SIGN E",
text! "A827          ; XID_Continue # Mc       SYLOTI NAGRI VOWEL SIGN OO",
text! "A82C          ; XID_Continue # Mn       SYLOTI NAGRI SIGN ALTERNATE HASANTA",
text! "A840..A873    ; XID_Continue # Lo  [52] PHAGS-PA LETTER KA..PHAGS-PA LETTER CANDRABINDU",
text! "A880..A881    ; XID_Continue # Mc   [2] SAURASHTRA SIGN ANUSVARA..SAURASHTRA SIGN VISARGA",
text! "A882..A8B3    ; XID_Continue # Lo  [50] SAURASHTRA LETTER A..SAURASHTRA LETTER LLA",
text! "A8B4..A8C3    ; XID_Continue # Mc  [16] SAURASHTRA CONSONANT SIGN HAARU..SAURASHTRA VOWEL SIGN AU",
text! "A8C4..A8C5    ; XID_Continue # Mn   [2] SAURASHTRA SIGN VIRAMA..SAURASHTRA SIGN CANDRABINDU",
text! "A8D0..A8D9    ; XID_Continue # Nd  [10] SAURASHTRA DIGIT ZERO..SAURASHTRA DIGIT NINE",
text! "A8E0..A8F1    ; XID_Continue # Mn  [18] COMBINING DEVANAGARI DIGIT ZERO..COMBINING DEVANAGARI SIGN AVAGRAHA",
text! "A8F2..A8F7    ; XID_Continue # Lo   [6] DEVANAGARI SIGN SPACING CANDRABINDU..DEVANAGARI SIGN CANDRABINDU AVAGRAHA",
text! "A8FB          ; XID_Continue # Lo       DEVANAGARI HEADSTROKE",
text! "A8FD..A8FE    ; XID_Continue # Lo   [2] DEVANAGARI JAIN OM..DEVANAGARI LETTER AY",
text! "A8FF          ; XID_Continue # Mn       DEVANAGARI VOWEL SIGN AY",
text! "A900..A909    ; XID_Continue # Nd  [10] KAYAH LI DIGIT ZERO..KAYAH LI DIGIT NINE",
text! "A90A..A925    ; XID_Continue # Lo  [28] KAYAH LI LETTER KA..KAYAH LI LETTER OO",
text! "A926..A92D    ; XID_Continue # Mn   [8] KAYAH LI VOWEL UE..KAYAH LI TONE CALYA PLOPHU",
text! "A930..A946    ; XID_Continue # Lo  [23] REJANG LETTER KA..REJANG LETTER A",
text! "A947..A951    ; XID_Continue # Mn  [11] REJANG VOWEL SIGN I..REJANG CONSONANT SIGN R",
text! "A952..A953    ; XID_Continue # Mc   [2] REJANG CONSONANT SIGN H..REJANG VIRAMA",
text! "A960..A97C    ; XID_Continue # Lo  [29] HANGUL CHOSEONG TIKEUT-MIEUM..HANGUL CHOSEONG SSANGYEORINHIEUH",
text! "A980..A982    ; XID_Continue # Mn   [3] JAVANESE SIGN PANYANGGA..JAVANESE SIGN LAYAR",
text! "A983          ; XID_Continue # Mc       JAVANESE SIGN WIGNYAN",
text! "A984..A9B2    ; XID_Continue # Lo  [47] JAVANESE LETTER A..JAVANESE LETTER HA",
text! "A9B3          ; XID_Continue # Mn       JAVANESE SIGN CECAK TELU",
text! "A9B4..A9B5    ; XID_Continue # Mc   [2] JAVANESE VOWEL SIGN TARUNG..JAVANESE VOWEL SIGN TOLONG"]

/-- lines 9985-10048 -/
def derivedCore156 : List Nat := [
text! "A9B6..A9B9    ; XID_Continue # Mn   [4] JAVANESE VOWEL SIGN WULU..JAVANESE VOWEL SIGN SUKU MENDUT",
text! "A9BA..A9BB    ; XID_Continue # Mc   [2] JAVANESE VOWEL SIGN TALING..JAVANESE VOWEL SIGN DIRGA MURE",
text! "A9BC..A9BD    ; XID_Continue # Mn   [2] JAVANESE VOWEL SIGN PEPET..JAVANESE CONSONANT SIGN KERET",
text! "A9BE..A9C0    ; XID_Continue # Mc   [3] JAVANESE CONSONANT SIGN PENGKAL..JAVANESE PANGKON",
text! "A9CF          ; XID_Continue # Lm       JAVANESE PANGRANGKEP",
text! "A9D0..A9D9    ; XID_Continue # Nd  [10] JAVANESE DIGIT ZERO..JAVANESE DIGIT NINE",
text! "A9E0..A9E4    ; XID_Continue # Lo   [5] MYANMAR LETTER SHAN GHA..MYANMAR LETTER SHAN BHA",
text! "A9E5          ; XID_Continue # Mn       MYANMAR SIGN SHAN SAW",
text! "A9E6          ; XID_Continue # Lm       MYANMAR MODIFIER LETTER SHAN REDUPLICATION",
text! "A9E7..A9EF    ; XID_Continue # Lo   [9] MYANMAR LETTER TAI LAING NYA..MYANMAR LETTER TAI LAING NNA",
text! "A9F0..A9F9    ; XID_Continue # Nd  [10] MYANMAR TAI LAING DIGIT ZERO..MYANMAR TAI LAING DIGIT NINE",
text! "A9FA..A9FE    ; XID_Continue # Lo   [5] MYANMAR LETTER TAI LAING LLA..MYANMAR LETTER TAI LAING BHA",
text! "AA00..AA28    ; XID_Continue # Lo  [41] CHAM LETTER A..CHAM LETTER HA",
text! "AA29..AA2E    ; XID_Continue # Mn   [6] CHAM VOWEL SIGN AA..CHAM VOWEL SIGN OE",
text! "AA2F..AA30    ; XID_Continue # Mc   [2] CHAM VOWEL SIGN O..CHAM VOWEL SIGN AI",
text! "AA31..AA32    ; XID_Continue # Mn   [2] CHAM VOWEL SIGN AU..CHAM VOWEL SIGN UE",
text! "AA33..AA34    ; XID_Continue # Mc   [2] CHAM CONSONANT SIGN YA..CHAM CONSONANT SIGN RA",
text! "AA35..AA36    ; XID_Continue # Mn   [2] CHAM CONSONANT SIGN LA..CHAM CONSONANT SIGN WA",
text! "AA40..AA42    ; XID_Continue # Lo   [3] CHAM LETTER FINAL K..CHAM LETTER FINAL NG",
text! "AA43          ; XID_Continue # Mn       CHAM CONSONANT SIGN FINAL NG",
text! "AA44..AA4B    ; XID_Continue # Lo   [8] CHAM LETTER FINAL CH..CHAM LETTER FINAL SS",
text! "AA4C          ; XID_Continue # Mn       CHAM CONSONANT SIGN FINAL M",
text! "AA4D          ; XID_Continue # Mc       CHAM CONSONANT SIGN FINAL H",
text! "AA50..AA59    ; XID_Continue # Nd  [10] CHAM DIGIT ZERO..CHAM DIGIT NINE",
text! "AA60..AA6F    ; XID_Continue # Lo  [16] MYANMAR LETTER KHAMTI GA..MYANMAR LETTER KHAMTI FA",
text! "AA70          ; XID_Continue # Lm       MYANMAR MODIFIER LETTER KHAMTI REDUPLICATION",
text! "AA71..AA76    ; XID_Continue # Lo   [6] MYANMAR LETTER KHAMTI XA..MYANMAR LOGOGRAM KHAMTI HM",
text! "AA7A          ; XID_Continue # Lo       MYANMAR LETTER AITON RA",
text! "AA7B          ; XID_Continue # Mc       MYANMAR SIGN PAO KAREN TONE",
text! "AA7C          ; XID_Continue # Mn       MYANMAR SIGN TAI LAING TONE-2",
text! "AA7D          ; XID_Continue # Mc       MYANMAR SIGN TAI LAING TONE-5",
text! "AA7E..AAAF    ; XID_Continue # Lo  [50] MYANMAR LETTER SHWE PALAUNG CHA..TAI VIET LETTER HIGH O",
text! "AAB0          ; XID_Continue # Mn       TAI VIET MAI KANG",
text! "AAB1          ; XID_Continue # Lo       TAI VIET VOWEL AA",
text! "AAB2..AAB4    ; XID_Continue # Mn   [3] TAI VIET VOWEL I..TAI VIET VOWEL U",
text! "AAB5..AAB6    ; XID_Continue # Lo   [2] TAI VIET VOWEL E..TAI VIET VOWEL O",
text! "AAB7..AAB8    ; XID_Continue # Mn   [2] TAI VIET MAI KHIT..TAI VIET VOWEL IA",
text! "AAB9..AABD    ; XID_Continue # Lo   [5] TAI VIET VOWEL UEA..TAI VIET VOWEL AN",
text! "AABE..AABF    ; XID_Continue # Mn   [2] TAI VIET VOWEL AM..TAI VIET TONE MAI EK",
text! "AAC0          ; XID_Continue # Lo       TAI VIET TONE MAI NUENG",
text! "AAC1          ; XID_Continue # Mn       TAI VIET TONE MAI THO",
text! "AAC2          ; XID_Continue # Lo       TAI VIET TONE MAI SONG",
text! "AADB..AADC    ; XID_Continue # Lo   [2] TAI VIET SYMBOL KON..TAI VIET SYMBOL NUENG",
text! "AADD          ; XID_Continue # Lm       TAI VIET SYMBOL SAM",
text! "AAE0..AAEA    ; XID_Continue # Lo  [11] MEETEI MAYEK LETTER E..MEETEI MAYEK LETTER SSA",
text! "AAEB          ; XID_Continue # Mc       MEETEI MAYEK VOWEL SIGN II",
text! "AAEC..AAED    ; XID_Continue # Mn   [2] MEETEI MAYEK VOWEL SIGN UU..MEETEI MAYEK VOWEL SIGN AAI",
text! "AAEE..AAEF    ; XID_Continue # Mc   [2] MEETEI MAYEK VOWEL SIGN AU..MEETEI MAYEK VOWEL SIGN AAU",
text! "AAF2          ; XID_Continue # Lo       MEETEI MAYEK ANJI",
text! "AAF3..AAF4    ; XID_Continue # Lm   [2] MEETEI MAYEK SYLLABLE REPETITION MARK..MEETEI MAYEK WORD REPETITION MARK",
text! "AAF5          ; XID_Continue # Mc       MEETEI MAYEK VOWEL SIGN VISARGA",
text! "AAF6          ; XID_Continue # Mn       MEETEI MAYEK VIRAMA",
text! "AB01..AB06    ; XID_Continue # Lo   [6] ETHIOPIC SYLLABLE TTHU..ETHIOPIC SYLLABLE TTHO",
text! "AB09..AB0E    ; XID_Continue # Lo   [6] ETHIOPIC SYLLABLE DDHU..ETHIOPIC SYLLABLE DDHO",
text! "AB11..AB16    ; XID_Continue # Lo   [6] ETHIOPIC SYLLABLE DZU..ETHIOPIC SYLLABLE DZO",
text! "AB20..AB26    ; XID_Continue # Lo   [7] ETHIOPIC SYLLABLE CCHHA..ETHIOPIC SYLLABLE CCHHO",
text! "AB28..AB2E    ; XID_Continue # Lo   [7] ETHIOPIC SYLLABLE BBA..ETHIOPIC SYLLABLE BBO",
text! "AB30..AB5A    ; XID_Continue # L&  [43] LATIN SMALL LETTER BARRED ALPHA..LATIN SMALL LETTER Y WITH SHORT RIGHT LEG",
text! "AB5C..AB5F    ; XID_Continue # Lm   [4] MODIFIER LETTER SMALL HENG..MODIFIER LETTER SMALL U WITH LEFT HOOK",
text! "AB60..AB68    ; XID_Continue # L&   [9] LATIN SMALL LETTER SAKHA YAT..LATIN SMALL LETTER TURNED R WITH MIDDLE TILDE",
text! "AB69          ; XID_Continue # Lm       MODIFIER LETTER SMALL TURNED W",
text! "AB70..ABBF    ; XID_Continue # L&  [80] CHEROKEE SMALL LETTER A..CHEROKEE SMALL LETTER YA",
text! "ABC0..ABE2    ; XID_Continue # Lo  [35] MEETEI MAYEK LETTER KOK..MEETEI MAYEK LETTER I LONSUM",
text! "ABE3..ABE4    ; XID_Continue # Mc   [2] MEETEI MAYEK VOWEL SIGN ONAP..MEETEI MAYEK VOWEL SIGN INAP"]

/-- lines 10049-10112 -/
def derivedCore157 : List Nat := [
text! "ABE5          ; XID_Continue # Mn       MEETEI MAYEK VOWEL SIGN ANAP",
text! "ABE6..ABE7    ; XID_Continue # Mc   [2] MEETEI MAYEK VOWEL SIGN YENAP..MEETEI MAYEK VOWEL SIGN SOUNAP",
text! "ABE8          ; XID_Continue # Mn       MEETEI MAYEK VOWEL SIGN UNAP",
text! "ABE9..ABEA    ; XID_Continue # Mc   [2] MEETEI MAYEK VOWEL SIGN CHEINAP..MEETEI MAYEK VOWEL SIGN NUNG",
text! "ABEC          ; XID_Continue # Mc       MEETEI MAYEK LUM IYEK",
text! "ABED          ; XID_Continue # Mn       MEETEI MAYEK APUN IYEK",
text! "ABF0..ABF9    ; XID_Continue # Nd  [10] MEETEI MAYEK DIGIT ZERO..MEETEI MAYEK DIGIT NINE",
text! "AC00..D7A3    ; XID_Continue # Lo [11172] HANGUL SYLLABLE GA..HANGUL SYLLABLE HIH",
text! "D7B0..D7C6    ; XID_Continue # Lo  [23] HANGUL JUNGSEONG O-YEO..HANGUL JUNGSEONG ARAEA-E",
text! "D7CB..D7FB    ; XID_Continue # Lo  [49] HANGUL JONGSEONG NIEUN-RIEUL..HANGUL JONGSEONG PHIEUPH-THIEUTH",
text! "F900..FA6D    ; XID_Continue # Lo [366] CJK COMPATIBILITY IDEOGRAPH-F900..CJK COMPATIBILITY IDEOGRAPH-FA6D",
text! "FA70..FAD9    ; XID_Continue # Lo [106] CJK COMPATIBILITY IDEOGRAPH-FA70..CJK COMPATIBILITY IDEOGRAPH-FAD9",
text! "FB00..FB06    ; XID_Continue # L&   [7] LATIN SMALL LIGATURE FF..LATIN SMALL LIGATURE ST",
text! "FB13..FB17    ; XID_Continue # L&   [5] ARMENIAN SMALL LIGATURE MEN NOW..ARMENIAN SMALL LIGATURE MEN XEH",
text! "FB1D          ; XID_Continue # Lo       HEBREW LETTER YOD WITH HIRIQ",
text! "FB1E          ; XID_Continue # Mn       HEBREW POINT JUDEO-SPANISH VARIKA",
text! "FB1F..FB28    ; XID_Continue # Lo  [10] HEBREW LIGATURE YIDDISH YOD YOD PATAH..HEBREW LETTER WIDE TAV",
text! "FB2A..FB36    ; XID_Continue # Lo  [13] HEBREW LETTER SHIN WITH SHIN DOT..HEBREW LETTER ZAYIN WITH DAGESH",
text! "FB38..FB3C    ; XID_Continue # Lo   [5] HEBREW LETTER TET WITH DAGESH..HEBREW LETTER LAMED WITH DAGESH",
text! "FB3E          ; XID_Continue # Lo       HEBREW LETTER MEM WITH DAGESH",
text! "FB40..FB41    ; XID_Continue # Lo   [2] HEBREW LETTER NUN WITH DAGESH..HEBREW LETTER SAMEKH WITH DAGESH",
text! "FB43..FB44    ; XID_Continue # Lo   [2] HEBREW LETTER FINAL PE WITH DAGESH..HEBREW LETTER PE WITH DAGESH",
text! "FB46..FBB1    ; XID_Continue # Lo [108] HEBREW LETTER TSADI WITH DAGESH..ARABIC LETTER YEH BARREE WITH HAMZA ABOVE FINAL FORM",
text! "FBD3..FC5D    ; XID_Continue # Lo [139] ARABIC LETTER NG ISOLATED FORM..ARABIC LIGATURE ALEF MAKSURA WITH SUPERSCRIPT ALEF ISOLATED FORM",
text! "FC64..FD3D    ; XID_Continue # Lo [218] ARABIC LIGATURE YEH WITH HAMZA ABOVE WITH REH FINAL FORM..ARABIC LIGATURE ALEF WITH FATHATAN ISOLATED FORM",
text! "FD50..FD8F    ; XID_Continue # Lo  [64] ARABIC LIGATURE TEH WITH JEEM WITH MEEM INITIAL FORM..ARABIC LIGATURE MEEM WITH KHAH WITH MEEM INITIAL FORM",
text! "FD92..FDC7    ; XID_Continue # Lo  [54] ARABIC LIGATURE MEEM WITH JEEM WITH KHAH INITIAL FORM..ARABIC LIGATURE NOON WITH JEEM WITH YEH FINAL FORM",
text! "FDF0..FDF9    ; XID_Continue # Lo  [10] ARABIC LIGATURE SALLA USED AS KORANIC STOP SIGN ISOLATED FORM..ARABIC LIGATURE SALLA ISOLATED FORM",
text! "FE00..FE0F    ; XID_Continue # Mn  [16] VARIATION SELECTOR-1..VARIATION SELECTOR-16",
text! "FE20..FE2F    ; XID_Continue # Mn  [16] COMBINING LIGATURE LEFT HALF..COMBINING CYRILLIC TITLO RIGHT HALF",
text! "FE33..FE34    ; XID_Continue # Pc   [2] PRESENTATION FORM FOR VERTICAL LOW LINE..PRESENTATION FORM FOR VERTICAL WAVY LOW LINE",
text! "FE4D..FE4F    ; XID_Continue # Pc   [3] DASHED LOW LINE..WAVY LOW LINE",
text! "FE71          ; XID_Continue # Lo       ARABIC TATWEEL WITH FATHATAN ABOVE",
text! "FE73          ; XID_Continue # Lo       ARABIC TAIL FRAGMENT",
text! "FE77          ; XID_Continue # Lo       ARABIC FATHA MEDIAL FORM",
text! "FE79          ; XID_Continue # Lo       ARABIC DAMMA MEDIAL FORM",
text! "FE7B          ; XID_Continue # Lo       ARABIC KASRA MEDIAL FORM",
text! "FE7D          ; XID_Continue # Lo       ARABIC SHADDA MEDIAL FORM",
text! "FE7F..FEFC    ; XID_Continue # Lo [126] ARABIC SUKUN MEDIAL FORM..ARABIC LIGATURE LAM WITH ALEF FINAL FORM",
text! "FF10..FF19    ; XID_Continue # Nd  [10] FULLWIDTH DIGIT ZERO..FULLWIDTH DIGIT NINE",
text! "FF21..FF3A    ; XID_Continue # L&  [26] FULLWIDTH LATIN CAPITAL LETTER A..FULLWIDTH LATIN CAPITAL LETTER Z",
text! "FF3F          ; XID_Continue # Pc       FULLWIDTH LOW LINE",
text! "FF41..FF5A    ; XID_Continue # L&  [26] FULLWIDTH LATIN SMALL LETTER A..FULLWIDTH LATIN SMALL LETTER Z",
text! "FF65          ; XID_Continue # Po       HALFWIDTH KATAKANA MIDDLE DOT",
text! "FF66..FF6F    ; XID_Continue # Lo  [10] HALFWIDTH KATAKANA LETTER WO..HALFWIDTH KATAKANA LETTER SMALL TU",
text! "FF70          ; XID_Continue # Lm       HALFWIDTH KATAKANA-HIRAGANA PROLONGED SOUND MARK",
text! "FF71..FF9D    ; XID_Continue # Lo  [45] HALFWIDTH KATAKANA LETTER A..HALFWIDTH KATAKANA LETTER N",
text! "FF9E..FF9F    ; XID_Continue # Lm   [2] HALFWIDTH KATAKANA VOICED SOUND MARK..HALFWIDTH KATAKANA SEMI-VOICED SOUND MARK",
text! "FFA0..FFBE    ; XID_Continue # Lo  [31] HALFWIDTH HANGUL FILLER..HALFWIDTH HANGUL LETTER HIEUH",
text! "FFC2..FFC7    ; XID_Continue # Lo   [6] HALFWIDTH HANGUL LETTER A..HALFWIDTH HANGUL LETTER E",
text! "FFCA..FFCF    ; XID_Continue # Lo   [6] HALFWIDTH HANGUL LETTER YEO..HALFWIDTH HANGUL LETTER OE",
text! "FFD2..FFD7    ; XID_Continue # Lo   [6] HALFWIDTH HANGUL LETTER YO..HALFWIDTH HANGUL LETTER YU",
text! "FFDA..FFDC    ; XID_Continue # Lo   [3] HALFWIDTH HANGUL LETTER EU..HALFWIDTH HANGUL LETTER I",
text! "10000..1000B  ; XID_Continue # Lo  [12] LINEAR B SYLLABLE B008 A..LINEAR B SYLLABLE B046 JE",
text! "1000D..10026  ; XID_Continue # Lo  [26] LINEAR B SYLLABLE B036 JO..LINEAR B SYLLABLE B032 QO",
text! "10028..1003A  ; XID_Continue # Lo  [19] LINEAR B SYLLABLE B060 RA..LINEAR B SYLLABLE B042 WO",
text! "1003C..1003D  ; XID_Continue # Lo   [2] LINEAR B SYLLABLE B017 ZA..LINEAR B SYLLABLE B074 ZE",
text! "1003F..1004D  ; XID_Continue # Lo  [15] LINEAR B SYLLABLE B020 ZO..LINEAR B SYLLABLE B091 TWO",
text! "10050..1005D  ; XID_Continue # Lo  [14] LINEAR B SYMBOL B018..LINEAR B SYMBOL B089",
text! "10080..100FA  ; XID_Continue # Lo [123] LINEAR B IDEOGRAM B100 MAN..LINEAR B IDEOGRAM VESSEL B305",
text! "10140..10174  ; XID_Continue # Nl  [53] GREEK ACROPHONIC ATTIC ONE QUARTER..GREEK ACROPHONIC STRATIAN FIFTY MNAS",
text! "101FD         ; XID_Continue # Mn       PHAISTOS DISC SIGN COMBINING OBLIQUE STROKE",
text! "10280..1029C  ; XID_Continue # Lo  [29] LYCIAN LETTER A..LYCIAN LETTER X",
text! "102A0..102D0  ; XID_Continue # Lo  [49] CARIAN LETTER A..CARIAN LETTER UUU3"]

/-- lines 10113-10176 -/
def derivedCore158 : List Nat := [
text! "102E0         ; XID_Continue # Mn       COPTIC EPACT THOUSANDS MARK",
text! "10300..1031F  ; XID_Continue # Lo  [32] OLD ITALIC LETTER A..OLD ITALIC LETTER ESS",
text! "1032D..10340  ; XID_Continue # Lo  [20] OLD ITALIC LETTER YE..GOTHIC LETTER PAIRTHRA",
text! "10341         ; XID_Continue # Nl       GOTHIC LETTER NINETY",
text! "10342..10349  ; XID_Continue # Lo   [8] GOTHIC LETTER RAIDA..GOTHIC LETTER OTHAL",
text! "1034A         ; XID_Continue # Nl       GOTHIC LETTER NINE HUNDRED",
text! "10350..10375  ; XID_Continue # Lo  [38] OLD PERMIC LETTER AN..OLD PERMIC LETTER IA",
text! "10376..1037A  ; XID_Continue # Mn   [5] COMBINING OLD PERMIC LETTER AN..COMBINING OLD PERMIC LETTER SII",
text! "10380..1039D  ; XID_Continue # Lo  [30] UGARITIC LETTER ALPA..UGARITIC LETTER SSU",
text! "103A0..103C3  ; XID_Continue # Lo  [36] OLD PERSIAN SIGN A..OLD PERSIAN SIGN HA",
text! "103C8..103CF  ; XID_Continue # Lo   [8] OLD PERSIAN SIGN AURAMAZDAA..OLD PERSIAN SIGN BUUMISH",
text! "103D1..103D5  ; XID_Continue # Nl   [5] OLD PERSIAN NUMBER ONE..OLD PERSIAN NUMBER HUNDRED",
text! "10400..1044F  ; XID_Continue # L&  [80] DESERET CAPITAL LETTER LONG I..DESERET SMALL LETTER EW",
text! "10450..1049D  ; XID_Continue # Lo  [78] SHAVIAN LETTER PEEP..OSMANYA LETTER OO",
text! "104A0..104A9  ; XID_Continue # Nd  [10] OSMANYA DIGIT ZERO..OSMANYA DIGIT NINE",
text! "104B0..104D3  ; XID_Continue # L&  [36] OSAGE CAPITAL LETTER A..OSAGE CAPITAL LETTER ZHA",
text! "104D8..104FB  ; XID_Continue # L&  [36] OSAGE SMALL LETTER A..OSAGE SMALL LETTER ZHA",
text! "10500..10527  ; XID_Continue # Lo  [40] ELBASAN LETTER A..ELBASAN LETTER KHE",
text! "10530..10563  ; XID_Continue # Lo  [52] CAUCASIAN ALBANIAN LETTER ALT..CAUCASIAN ALBANIAN LETTER KIW",
text! "10570..1057A  ; XID_Continue # L&  [11] VITHKUQI CAPITAL LETTER A..VITHKUQI CAPITAL LETTER GA",
text! "1057C..1058A  ; XID_Continue # L&  [15] VITHKUQI CAPITAL LETTER HA..VITHKUQI CAPITAL LETTER RE",
text! "1058C..10592  ; XID_Continue # L&   [7] VITHKUQI CAPITAL LETTER SE..VITHKUQI CAPITAL LETTER XE",
text! "10594..10595  ; XID_Continue # L&   [2] VITHKUQI CAPITAL LETTER Y..VITHKUQI CAPITAL LETTER ZE",
text! "10597..105A1  ; XID_Continue # L&  [11] VITHKUQI SMALL LETTER A..VITHKUQI SMALL LETTER GA",
text! "105A3..105B1  ; XID_Continue # L&  [15] VITHKUQI SMALL LETTER HA..VITHKUQI SMALL LETTER RE",
text! "105B3..105B9  ; XID_Continue # L&   [7] VITHKUQI SMALL LETTER SE..VITHKUQI SMALL LETTER XE",
text! "105BB..105BC  ; XID_Continue # L&   [2] VITHKUQI SMALL LETTER Y..VITHKUQI SMALL LETTER ZE",
text! "105C0..105F3  ; XID_Continue # Lo  [52] TODHRI LETTER A..TODHRI LETTER OO",
text! "10600..10736  ; XID_Continue # Lo [311] LINEAR A SIGN AB001..LINEAR A SIGN A664",
text! "10740..10755  ; XID_Continue # Lo  [22] LINEAR A SIGN A701 A..LINEAR A SIGN A732 JE",
text! "10760..10767  ; XID_Continue # Lo   [8] LINEAR A SIGN A800..LINEAR A SIGN A807",
text! "10780..10785  ; XID_Continue # Lm   [6] MODIFIER LETTER SMALL CAPITAL AA..MODIFIER LETTER SMALL B WITH HOOK",
text! "10787..107B0  ; XID_Continue # Lm  [42] MODIFIER LETTER SMALL DZ DIGRAPH..MODIFIER LETTER SMALL V WITH RIGHT HOOK",
text! "107B2..107BA  ; XID_Continue # Lm   [9] MODIFIER LETTER SMALL CAPITAL Y..MODIFIER LETTER SMALL S WITH CURL",
text! "10800..10805  ; XID_Continue # Lo   [6] CYPRIOT SYLLABLE A..CYPRIOT SYLLABLE JA",
text! "10808         ; XID_Continue # Lo       CYPRIOT SYLLABLE JO",
text! "1080A..10835  ; XID_Continue # Lo  [44] CYPRIOT SYLLABLE KA..CYPRIOT SYLLABLE WO",
text! "10837..10838  ; XID_Continue # Lo   [2] CYPRIOT SYLLABLE XA..CYPRIOT SYLLABLE XE",
text! "1083C         ; XID_Continue # Lo       CYPRIOT SYLLABLE ZA",
text! "1083F..10855  ; XID_Continue # Lo  [23] CYPRIOT SYLLABLE ZO..IMPERIAL ARAMAIC LETTER TAW",
text! "10860..10876  ; XID_Continue # Lo  [23] PALMYRENE LETTER ALEPH..PALMYRENE LETTER TAW",
text! "10880..1089E  ; XID_Continue # Lo  [31] NABATAEAN LETTER FINAL ALEPH..NABATAEAN LETTER TAW",
text! "108E0..108F2  ; XID_Continue # Lo  [19] HATRAN LETTER ALEPH..HATRAN LETTER QOPH",
text! "108F4..108F5  ; XID_Continue # Lo   [2] HATRAN LETTER SHIN..HATRAN LETTER TAW",
text! "10900..10915  ; XID_Continue # Lo  [22] PHOENICIAN LETTER ALF..PHOENICIAN LETTER TAU",
text! "10920..10939  ; XID_Continue # Lo  [26] LYDIAN LETTER A..LYDIAN LETTER C",
text! "10940..10959  ; XID_Continue # Lo  [26] SIDETIC LETTER N01..SIDETIC LETTER N26",
text! "10980..109B7  ; XID_Continue # Lo  [56] MEROITIC HIEROGLYPHIC LETTER A..MEROITIC CURSIVE LETTER DA",
text! "109BE..109BF  ; XID_Continue # Lo   [2] MEROITIC CURSIVE LOGOGRAM RMT..MEROITIC CURSIVE LOGOGRAM IMN",
text! "10A00         ; XID_Continue # Lo       KHAROSHTHI LETTER A",
text! "10A01..10A03  ; XID_Continue # Mn   [3] KHAROSHTHI VOWEL SIGN I..KHAROSHTHI VOWEL SIGN VOCALIC R",
text! "10A05..10A06  ; XID_Continue # Mn   [2] KHAROSHTHI VOWEL SIGN E..KHAROSHTHI VOWEL SIGN O",
text! "10A0C..10A0F  ; XID_Continue # Mn   [4] KHAROSHTHI VOWEL LENGTH MARK..KHAROSHTHI SIGN VISARGA",
text! "10A10..10A13  ; XID_Continue # Lo   [4] KHAROSHTHI LETTER KA..KHAROSHTHI LETTER GHA",
text! "10A15..10A17  ; XID_Continue # Lo   [3] KHAROSHTHI LETTER CA..KHAROSHTHI LETTER JA",
text! "10A19..10A35  ; XID_Continue # Lo  [29] KHAROSHTHI LETTER NYA..KHAROSHTHI LETTER VHA",
text! "10A38..10A3A  ; XID_Continue # Mn   [3] KHAROSHTHI SIGN BAR ABOVE..KHAROSHTHI SIGN DOT BELOW",
text! "10A3F         ; XID_Continue # Mn       KHAROSHTHI VIRAMA",
text! "10A60..10A7C  ; XID_Continue # Lo  [29] OLD SOUTH ARABIAN LETTER HE..OLD SOUTH ARABIAN LETTER THETH",
text! "10A80..10A9C  ; XID_Continue # Lo  [29] OLD NORTH ARABIAN LETTER HEH..OLD NORTH ARABIAN LETTER ZAH",
text! "10AC0..10AC7  ; XID_Continue # Lo   [8] MANICHAEAN LETTER ALEPH..MANICHAEAN LETTER WAW",
text! "10AC9..10AE4  ; XID_Continue # Lo  [28] MANICHAEAN LETTER ZAYIN..MANICHAEAN LETTER TAW",
text! "10AE5..10AE6  ; XID_Continue # Mn   [2] MANICHAEAN ABBREVIATION MARK ABOVE..MANICHAEAN ABBREVIATION MARK BELOW",
text! "10B00..10B35  ; XID_Continue # Lo  [54] AVESTAN LETTER A..AVESTAN LETTER HE"]

/-- lines 10177-10240 -/
def derivedCore159 : List Nat := [
text! "10B40..10B55  ; XID_Continue # Lo  [22] INSCRIPTIONAL PARTHIAN LETTER ALEPH..INSCRIPTIONAL PARTHIAN LETTER TAW",
text! "10B60..10B72  ; XID_Continue # Lo  [19] INSCRIPTIONAL PAHLAVI LETTER ALEPH..INSCRIPTIONAL PAHLAVI LETTER TAW",
text! "10B80..10B91  ; XID_Continue # Lo  [18] PSALTER PAHLAVI LETTER ALEPH..PSALTER PAHLAVI LETTER TAW",
text! "10C00..10C48  ; XID_Continue # Lo  [73] OLD TURKIC LETTER ORKHON A..OLD TURKIC LETTER ORKHON BASH",
text! "10C80..10CB2  ; XID_Continue # L&  [51] OLD HUNGARIAN CAPITAL LETTER A..OLD HUNGARIAN CAPITAL LETTER US",
text! "10CC0..10CF2  ; XID_Continue # L&  [51] OLD HUNGARIAN SMALL LETTER A..OLD HUNGARIAN SMALL LETTER US",
text! "10D00..10D23  ; XID_Continue # Lo  [36] HANIFI ROHINGYA LETTER A..HANIFI ROHINGYA MARK NA KHONNA",
text! "10D24..10D27  ; XID_Continue # Mn   [4] HANIFI ROHINGYA SIGN HARBAHAY..HANIFI ROHINGYA SIGN TASSI",
text! "10D30..10D39  ; XID_Continue # Nd  [10] HANIFI ROHINGYA DIGIT ZERO..HANIFI ROHINGYA DIGIT NINE",
text! "10D40..10D49  ; XID_Continue # Nd  [10] GARAY DIGIT ZERO..GARAY DIGIT NINE",
text! "10D4A..10D4D  ; XID_Continue # Lo   [4] GARAY VOWEL SIGN A..GARAY VOWEL SIGN EE",
text! "10D4E         ; XID_Continue # Lm       GARAY VOWEL LENGTH MARK",
text! "10D4F         ; XID_Continue # Lo       GARAY SUKUN",
text! "10D50..10D65  ; XID_Continue # L&  [22] GARAY CAPITAL LETTER A..GARAY CAPITAL LETTER OLD NA",
text! "10D69..10D6D  ; XID_Continue # Mn   [5] GARAY VOWEL SIGN E..GARAY CONSONANT NASALIZATION MARK",
text! "10D6F         ; XID_Continue # Lm       GARAY REDUPLICATION MARK",
text! "10D70..10D85  ; XID_Continue # L&  [22] GARAY SMALL LETTER A..GARAY SMALL LETTER OLD NA",
text! "10E80..10EA9  ; XID_Continue # Lo  [42] YEZIDI LETTER ELIF..YEZIDI LETTER ET",
text! "10EAB..10EAC  ; XID_Continue # Mn   [2] YEZIDI COMBINING HAMZA MARK..YEZIDI COMBINING MADDA MARK",
text! "10EB0..10EB1  ; XID_Continue # Lo   [2] YEZIDI LETTER LAM WITH DOT ABOVE..YEZIDI LETTER YOT WITH CIRCUMFLEX ABOVE",
text! "10EC2..10EC4  ; XID_Continue # Lo   [3] ARABIC LETTER DAL WITH TWO DOTS VERTICALLY BELOW..ARABIC LETTER KAF WITH TWO DOTS VERTICALLY BELOW",
text! "10EC5         ; XID_Continue # Lm       ARABIC SMALL YEH BARREE WITH TWO DOTS BELOW",
text! "10EC6..10EC7  ; XID_Continue # Lo   [2] ARABIC LETTER THIN NOON..ARABIC LETTER YEH WITH FOUR DOTS BELOW",
text! "10EFA..10EFF  ; XID_Continue # Mn   [6] ARABIC DOUBLE VERTICAL BAR BELOW..ARABIC SMALL LOW WORD MADDA",
text! "10F00..10F1C  ; XID_Continue # Lo  [29] OLD SOGDIAN LETTER ALEPH..OLD SOGDIAN LETTER FINAL TAW WITH VERTICAL TAIL",
text! "10F27         ; XID_Continue # Lo       OLD SOGDIAN LIGATURE AYIN-DALETH",
text! "10F30..10F45  ; XID_Continue # Lo  [22] SOGDIAN LETTER ALEPH..SOGDIAN INDEPENDENT SHIN",
text! "10F46..10F50  ; XID_Continue # Mn  [11] SOGDIAN COMBINING DOT BELOW..SOGDIAN COMBINING STROKE BELOW",
text! "10F70..10F81  ; XID_Continue # Lo  [18] OLD UYGHUR LETTER ALEPH..OLD UYGHUR LETTER LESH",
text! "10F82..10F85  ; XID_Continue # Mn   [4] OLD UYGHUR COMBINING DOT ABOVE..OLD UYGHUR COMBINING TWO DOTS BELOW",
text! "10FB0..10FC4  ; XID_Continue # Lo  [21] CHORASMIAN LETTER ALEPH..CHORASMIAN LETTER TAW",
text! "10FE0..10FF6  ; XID_Continue # Lo  [23] ELYMAIC LETTER ALEPH..ELYMAIC LIGATURE ZAYIN-YODH",
text! "11000         ; XID_Continue # Mc       BRAHMI SIGN CANDRABINDU",
text! "11001         ; XID_Continue # Mn       BRAHMI SIGN ANUSVARA",
text! "11002         ; XID_Continue # Mc       BRAHMI SIGN VISARGA",
text! "11003..11037  ; XID_Continue # Lo  [53] BRAHMI SIGN JIHVAMULIYA..BRAHMI LETTER OLD TAMIL NNNA",
text! "11038..11046  ; XID_Continue # Mn  [15] BRAHMI VOWEL SIGN AA..BRAHMI VIRAMA",
text! "11066..1106F  ; XID_Continue # Nd  [10] BRAHMI DIGIT ZERO..BRAHMI DIGIT NINE",
text! "11070         ; XID_Continue # Mn       BRAHMI SIGN OLD TAMIL VIRAMA",
text! "11071..11072  ; XID_Continue # Lo   [2] BRAHMI LETTER OLD TAMIL SHORT E..BRAHMI LETTER OLD TAMIL SHORT O",
text! "11073..11074  ; XID_Continue # Mn   [2] BRAHMI VOWEL SIGN OLD TAMIL SHORT E..BRAHMI VOWEL SIGN OLD TAMIL SHORT O",
text! "11075         ; XID_Continue # Lo       BRAHMI LETTER OLD TAMIL LLA",
text! "1107F..11081  ; XID_Continue # Mn   [3] BRAHMI NUMBER JOINER..KAITHI SIGN ANUSVARA",
text! "11082         ; XID_Continue # Mc       KAITHI SIGN VISARGA",
text! "11083..110AF  ; XID_Continue # Lo  [45] KAITHI LETTER A..KAITHI LETTER HA",
text! "110B0..110B2  ; XID_Continue # Mc   [3] KAITHI VOWEL SIGN AA..KAITHI VOWEL SIGN II",
text! "110B3..110B6  ; XID_Continue # Mn   [4] KAITHI VOWEL SIGN U..KAITHI VOWEL SIGN AI",
text! "110B7..110B8  ; XID_Continue # Mc   [2] KAITHI VOWEL SIGN O..KAITHI VOWEL SIGN AU",
text! "110B9..110BA  ; XID_Continue # Mn   [2] KAITHI SIGN VIRAMA..KAITHI SIGN NUKTA",
text! "110C2         ; XID_Continue # Mn       KAITHI VOWEL SIGN VOCALIC R",
text! "110D0..110E8  ; XID_Continue # Lo  [25] SORA SOMPENG LETTER SAH..SORA SOMPENG LETTER MAE",
text! "110F0..110F9  ; XID_Continue # Nd  [10] SORA SOMPENG DIGIT ZERO..SORA SOMPENG DIGIT NINE",
text! "11100..11102  ; XID_Continue # Mn   [3] CHAKMA SIGN CANDRABINDU..CHAKMA SIGN VISARGA",
text! "11103..11126  ; XID_Continue # Lo  [36] CHAKMA LETTER AA..CHAKMA LETTER HAA",
text! "11127..1112B  ; XID_Continue # Mn   [5] CHAKMA VOWEL SIGN A..CHAKMA VOWEL SIGN UU",
text! "1112C         ; XID_Continue # Mc       CHAKMA VOWEL SIGN E",
text! "1112D..11134  ; XID_Continue # Mn   [8] CHAKMA VOWEL SIGN AI..CHAKMA MAAYYAA",
text! "11136..1113F  ; XID_Continue # Nd  [10] CHAKMA DIGIT ZERO..CHAKMA DIGIT NINE",
text! "11144         ; XID_Continue # Lo       CHAKMA LETTER LHAA",
text! "11145..11146  ; XID_Continue # Mc   [2] CHAKMA VOWEL SIGN AA..CHAKMA VOWEL SIGN EI",
text! "11147         ; XID_Continue # Lo       CHAKMA LETTER VAA",
text! "11150..11172  ; XID_Continue # Lo  [35] MAHAJANI LETTER A..MAHAJANI LETTER RRA",
text! "11173         ; XID_Continue # Mn       MAHAJANI SIGN NUKTA",
text! "11176         ; XID_Continue # Lo       MAHAJANI LIGATURE SHRI"]

/-- lines 10241-10304 -/
def derivedCore160 : List Nat := [
text! "11180..11181  ; XID_Continue # Mn   [2] SHARADA SIGN CANDRABINDU..SHARADA SIGN ANUSVARA",
text! "11182         ; XID_Continue # Mc       SHARADA SIGN VISARGA",
text! "11183..111B2  ; XID_Continue # Lo  [48] SHARADA LETTER A..SHARADA LETTER HA",
text! "111B3..111B5  ; XID_Continue # Mc   [3] SHARADA VOWEL SIGN AA..SHARADA VOWEL SIGN II",
text! "111B6..111BE  ; XID_Continue # Mn   [9] SHARADA VOWEL SIGN U..SHARADA VOWEL SIGN O",
text! "111BF..111C0  ; XID_Continue # Mc   [2] SHARADA VOWEL SIGN AU..SHARADA SIGN VIRAMA",
text! "111C1..111C4  ; XID_Continue # Lo   [4] SHARADA SIGN AVAGRAHA..SHARADA OM",
text! "111C9..111CC  ; XID_Continue # Mn   [4] SHARADA SANDHI MARK..SHARADA EXTRA SHORT VOWEL MARK",
text! "111CE         ; XID_Continue # Mc       SHARADA VOWEL SIGN PRISHTHAMATRA E",
text! "111CF         ; XID_Continue # Mn       SHARADA SIGN INVERTED CANDRABINDU",
text! "111D0..111D9  ; XID_Continue # Nd  [10] SHARADA DIGIT ZERO..SHARADA DIGIT NINE",
text! "111DA         ; XID_Continue # Lo       SHARADA EKAM",
text! "111DC         ; XID_Continue # Lo       SHARADA HEADSTROKE",
text! "11200..11211  ; XID_Continue # Lo  [18] KHOJKI LETTER A..KHOJKI LETTER JJA",
text! "11213..1122B  ; XID_Continue # Lo  [25] KHOJKI LETTER NYA..KHOJKI LETTER LLA",
text! "1122C..1122E  ; XID_Continue # Mc   [3] KHOJKI VOWEL SIGN AA..KHOJKI VOWEL SIGN II",
text! "1122F..11231  ; XID_Continue # Mn   [3] KHOJKI VOWEL SIGN U..KHOJKI VOWEL SIGN AI",
text! "11232..11233  ; XID_Continue # Mc   [2] KHOJKI VOWEL SIGN O..KHOJKI VOWEL SIGN AU",
text! "11234         ; XID_Continue # Mn       KHOJKI SIGN ANUSVARA",
text! "11235         ; XID_Continue # Mc       KHOJKI SIGN VIRAMA",
text! "11236..11237  ; XID_Continue # Mn   [2] KHOJKI SIGN NUKTA..KHOJKI SIGN SHADDA",
text! "1123E         ; XID_Continue # Mn       KHOJKI SIGN SUKUN",
text! "1123F..11240  ; XID_Continue # Lo   [2] KHOJKI LETTER QA..KHOJKI LETTER SHORT I",
text! "11241         ; XID_Continue # Mn       KHOJKI VOWEL SIGN VOCALIC R",
text! "11280..11286  ; XID_Continue # Lo   [7] MULTANI LETTER A..MULTANI LETTER GA",
text! "11288         ; XID_Continue # Lo       MULTANI LETTER GHA",
text! "1128A..1128D  ; XID_Continue # Lo   [4] MULTANI LETTER CA..MULTANI LETTER JJA",
text! "1128F..1129D  ; XID_Continue # Lo  [15] MULTANI LETTER NYA..MULTANI LETTER BA",
text! "1129F..112A8  ; XID_Continue # Lo  [10] MULTANI LETTER BHA..MULTANI LETTER RHA",
text! "112B0..112DE  ; XID_Continue # Lo  [47] KHUDAWADI LETTER A..KHUDAWADI LETTER HA",
text! "112DF         ; XID_Continue # Mn       KHUDAWADI SIGN ANUSVARA",
text! "112E0..112E2  ; XID_Continue # Mc   [3] KHUDAWADI VOWEL SIGN AA..KHUDAWADI VOWEL SIGN II",
text! "112E3..112EA  ; XID_Continue # Mn   [8] KHUDAWADI VOWEL SIGN U..KHUDAWADI SIGN VIRAMA",
text! "112F0..112F9  ; XID_Continue # Nd  [10] KHUDAWADI DIGIT ZERO..KHUDAWADI DIGIT NINE",
text! "11300..11301  ; XID_Continue # Mn   [2] GRANTHA SIGN COMBINING ANUSVARA ABOVE..GRANTHA SIGN CANDRABINDU",
text! "11302..11303  ; XID_Continue # Mc   [2] GRANTHA SIGN ANUSVARA..GRANTHA SIGN VISARGA",
text! "11305..1130C  ; XID_Continue # Lo   [8] GRANTHA LETTER A..GRANTHA LETTER VOCALIC L",
text! "1130F..11310  ; XID_Continue # Lo   [2] GRANTHA LETTER EE..GRANTHA LETTER AI",
text! "11313..11328  ; XID_Continue # Lo  [22] GRANTHA LETTER OO..GRANTHA LETTER NA",
text! "1132A..11330  ; XID_Continue # Lo   [7] GRANTHA LETTER PA..GRANTHA LETTER RA",
text! "11332..11333  ; XID_Continue # Lo   [2] GRANTHA LETTER LA..GRANTHA LETTER LLA",
text! "11335..11339  ; XID_Continue # Lo   [5] GRANTHA LETTER VA..GRANTHA LETTER HA",
text! "1133B..1133C  ; XID_Continue # Mn   [2] COMBINING BINDU BELOW..GRANTHA SIGN NUKTA",
text! "1133D         ; XID_Continue # Lo       GRANTHA SIGN AVAGRAHA",
text! "1133E..1133F  ; XID_Continue # Mc   [2] GRANTHA VOWEL SIGN AA..GRANTHA VOWEL SIGN I",
text! "11340         ; XID_Continue # Mn       GRANTHA VOWEL SIGN II",
text! "11341..11344  ; XID_Continue # Mc   [4] GRANTHA VOWEL SIGN U..GRANTHA VOWEL SIGN VOCALIC RR",
text! "11347..11348  ; XID_Continue # Mc   [2] GRANTHA VOWEL SIGN EE..GRANTHA VOWEL SIGN AI",
text! "1134B..1134D  ; XID_Continue # Mc   [3] GRANTHA VOWEL SIGN OO..GRANTHA SIGN VIRAMA",
text! "11350         ; XID_Continue # Lo       GRANTHA OM",
text! "11357         ; XID_Continue # Mc       GRANTHA AU LENGTH MARK",
text! "1135D..11361  ; XID_Continue # Lo   [5] GRANTHA SIGN PLUTA..GRANTHA LETTER VOCALIC LL",
text! "11362..11363  ; XID_Continue # Mc   [2] GRANTHA VOWEL SIGN VOCALIC L..GRANTHA VOWEL SIGN VOCALIC LL",
text! "11366..1136C  ; XID_Continue # Mn   [7] COMBINING GRANTHA DIGIT ZERO..COMBINING GRANTHA DIGIT SIX",
text! "11370..11374  ; XID_Continue # Mn   [5] COMBINING GRANTHA LETTER A..COMBINING GRANTHA LETTER PA",
text! "11380..11389  ; XID_Continue # Lo  [10] TULU-TIGALARI LETTER A..TULU-TIGALARI LETTER VOCALIC LL",
text! "1138B         ; XID_Continue # Lo       TULU-TIGALARI LETTER EE",
text! "1138E         ; XID_Continue # Lo       TULU-TIGALARI LETTER AI",
text! "11390..113B5  ; XID_Continue # Lo  [38] TULU-TIGALARI LETTER OO..TULU-TIGALARI LETTER LLLA",
text! "113B7         ; XID_Continue # Lo       TULU-TIGALARI SIGN AVAGRAHA",
text! "113B8..113BA  ; XID_Continue # Mc   [3] TULU-TIGALARI VOWEL SIGN AA..TULU-TIGALARI VOWEL SIGN II",
text! "113BB..113C0  ; XID_Continue # Mn   [6] TULU-TIGALARI VOWEL SIGN U..TULU-TIGALARI VOWEL SIGN VOCALIC LL",
text! "113C2         ; XID_Continue # Mc       TULU-TIGALARI VOWEL SIGN EE",
text! "113C5         ; XID_Continue # Mc       TULU-TIGALARI VOWEL SIGN AI"]

/-- lines 10305-10368 -/
def derivedCore161 : List Nat := [
text! "113C7..113CA  ; XID_Continue # Mc   [4] TULU-TIGALARI VOWEL SIGN OO..TULU-TIGALARI SIGN CANDRA ANUNASIKA",
text! "113CC..113CD  ; XID_Continue # Mc   [2] TULU-TIGALARI SIGN ANUSVARA..TULU-TIGALARI SIGN VISARGA",
text! "113CE         ; XID_Continue # Mn       TULU-TIGALARI SIGN VIRAMA",
text! "113CF         ; XID_Continue # Mc       TULU-TIGALARI SIGN LOOPED VIRAMA",
text! "113D0         ; XID_Continue # Mn       TULU-TIGALARI CONJOINER",
text! "113D1         ; XID_Continue # Lo       TULU-TIGALARI REPHA",
text! "113D2         ; XID_Continue # Mn       TULU-TIGALARI GEMINATION MARK",
text! "113D3         ; XID_Continue # Lo       TULU-TIGALARI SIGN PLUTA",
text! "113E1..113E2  ; XID_Continue # Mn   [2] TULU-TIGALARI VEDIC TONE SVARITA..TULU-TIGALARI VEDIC TONE ANUDATTA",
text! "11400..11434  ; XID_Continue # Lo  [53] NEWA LETTER A..NEWA LETTER HA",
text! "11435..11437  ; XID_Continue # Mc   [3] NEWA VOWEL SIGN AA..NEWA VOWEL SIGN II",
text! "11438..1143F  ; XID_Continue # Mn   [8] NEWA VOWEL SIGN U..NEWA VOWEL SIGN AI",
text! "11440..11441  ; XID_Continue # Mc   [2] NEWA VOWEL SIGN O..NEWA VOWEL SIGN AU",
text! "11442..11444  ; XID_Continue # Mn   [3] NEWA SIGN VIRAMA..NEWA SIGN ANUSVARA",
text! "11445         ; XID_Continue # Mc       NEWA SIGN VISARGA",
text! "11446         ; XID_Continue # Mn       NEWA SIGN NUKTA",
text! "11447..1144A  ; XID_Continue # Lo   [4] NEWA SIGN AVAGRAHA..NEWA SIDDHI",
text! "11450..11459  ; XID_Continue # Nd  [10] NEWA DIGIT ZERO..NEWA DIGIT NINE",
text! "1145E         ; XID_Continue # Mn       NEWA SANDHI MARK",
text! "1145F..11461  ; XID_Continue # Lo   [3] NEWA LETTER VEDIC ANUSVARA..NEWA SIGN UPADHMANIYA",
text! "11480..114AF  ; XID_Continue # Lo  [48] TIRHUTA ANJI..TIRHUTA LETTER HA",
text! "114B0..114B2  ; XID_Continue # Mc   [3] TIRHUTA VOWEL SIGN AA..TIRHUTA VOWEL SIGN II",
text! "114B3..114B8  ; XID_Continue # Mn   [6] TIRHUTA VOWEL SIGN U..TIRHUTA VOWEL SIGN VOCALIC LL",
text! "114B9         ; XID_Continue # Mc       TIRHUTA VOWEL SIGN E",
text! "114BA         ; XID_Continue # Mn       TIRHUTA VOWEL SIGN SHORT E",
text! "114BB..114BE  ; XID_Continue # Mc   [4] TIRHUTA VOWEL SIGN AI..TIRHUTA VOWEL SIGN AU",
text! "114BF..114C0  ; XID_Continue # Mn   [2] TIRHUTA SIGN CANDRABINDU..TIRHUTA SIGN ANUSVARA",
text! "114C1         ; XID_Continue # Mc       TIRHUTA SIGN VISARGA",
text! "114C2..114C3  ; XID_Continue # Mn   [2] TIRHUTA SIGN VIRAMA..TIRHUTA SIGN NUKTA",
text! "114C4..114C5  ; XID_Continue # Lo   [2] TIRHUTA SIGN AVAGRAHA..TIRHUTA GVANG",
text! "114C7         ; XID_Continue # Lo       TIRHUTA OM",
text! "114D0..114D9  ; XID_Continue # Nd  [10] TIRHUTA DIGIT ZERO..TIRHUTA DIGIT NINE",
text! "11580..115AE  ; XID_Continue # Lo  [47] SIDDHAM LETTER A..SIDDHAM LETTER HA",
text! "115AF..115B1  ; XID_Continue # Mc   [3] SIDDHAM VOWEL SIGN AA..SIDDHAM VOWEL SIGN II",
text! "115B2..115B5  ; XID_Continue # Mn   [4] SIDDHAM VOWEL SIGN U..SIDDHAM VOWEL SIGN VOCALIC RR",
text! "115B8..115BB  ; XID_Continue # Mc   [4] SIDDHAM VOWEL SIGN E..SIDDHAM VOWEL SIGN AU",
text! "115BC..115BD  ; XID_Continue # Mn   [2] SIDDHAM SIGN CANDRABINDU..SIDDHAM SIGN ANUSVARA",
text! "115BE         ; XID_Continue # Mc       SIDDHAM SIGN VISARGA",
text! "115BF..115C0  ; XID_Continue # Mn   [2] SIDDHAM SIGN VIRAMA..SIDDHAM SIGN NUKTA",
text! "115D8..115DB  ; XID_Continue # Lo   [4] SIDDHAM LETTER THREE-CIRCLE ALTERNATE I..SIDDHAM LETTER ALTERNATE U",
text! "115DC..115DD  ; XID_Continue # Mn   [2] SIDDHAM VOWEL SIGN ALTERNATE U..SIDDHAM VOWEL SIGN ALTERNATE UU",
text! "11600..1162F  ; XID_Continue # Lo  [48] MODI LETTER A..MODI LETTER LLA",
text! "11630..11632  ; XID_Continue # Mc   [3] MODI VOWEL SIGN AA..MODI VOWEL SIGN II",
text! "11633..1163A  ; XID_Continue # Mn   [8] MODI VOWEL SIGN U..MODI VOWEL SIGN AI",
text! "1163B..1163C  ; XID_Continue # Mc   [2] MODI VOWEL SIGN O..MODI VOWEL SIGN AU",
text! "1163D         ; XID_Continue # Mn       MODI SIGN ANUSVARA",
text! "1163E         ; XID_Continue # Mc       MODI SIGN VISARGA",
text! "1163F..11640  ; XID_Continue # Mn   [2] MODI SIGN VIRAMA..MODI SIGN ARDHACANDRA",
text! "11644         ; XID_Continue # Lo       MODI SIGN HUVA",
text! "11650..11659  ; XID_Continue # Nd  [10] MODI DIGIT ZERO..MODI DIGIT NINE",
text! "11680..116AA  ; XID_Continue # Lo  [43] TAKRI LETTER A..TAKRI LETTER RRA",
text! "116AB         ; XID_Continue # Mn       TAKRI SIGN ANUSVARA",
text! "116AC         ; XID_Continue # Mc       TAKRI SIGN VISARGA",
text! "116AD         ; XID_Continue # Mn       TAKRI VOWEL SIGN AA",
text! "116AE..116AF  ; XID_Continue # Mc   [2] TAKRI VOWEL SIGN I..TAKRI VOWEL SIGN II",
text! "116B0..116B5  ; XID_Continue # Mn   [6] TAKRI VOWEL SIGN U..TAKRI VOWEL SIGN AU",
text! "116B6         ; XID_Continue # Mc       TAKRI SIGN VIRAMA",
text! "116B7         ; XID_Continue # Mn       TAKRI SIGN NUKTA",
text! "116B8         ; XID_Continue # Lo       TAKRI LETTER ARCHAIC KHA",
text! "116C0..116C9  ; XID_Continue # Nd  [10] TAKRI DIGIT ZERO..TAKRI DIGIT NINE",
text! "116D0..116E3  ; XID_Continue # Nd  [20] MYANMAR PAO DIGIT ZERO..MYANMAR EASTERN PWO KAREN DIGIT NINE",
text! "11700..1171A  ; XID_Continue # Lo  [27] AHOM LETTER KA..AHOM LETTER ALTERNATE BA",
text! "1171D         ; XID_Continue # Mn       AHOM CONSONANT SIGN MEDIAL LA",
text! "1171E         ; XID_Continue # Mc       AHOM CONSONANT SIGN MEDIAL RA"]

/-- lines 10369-10432 -/
def derivedCore162 : List Nat := [
text! "1171F         ; XID_Continue # Mn       AHOM CONSONANT SIGN MEDIAL LIGATING RA",
text! "11720..11721  ; XID_Continue # Mc   [2] AHOM VOWEL SIGN A..AHOM VOWEL SIGN AA",
text! "11722..11725  ; XID_Continue # Mn   [4] AHOM VOWEL SIGN I..AHOM VOWEL SIGN UU",
text! "11726         ; XID_Continue # Mc       AHOM VOWEL SIGN E",
text! "11727..1172B  ; XID_Continue # Mn   [5] AHOM VOWEL SIGN AW..AHOM SIGN KILLER",
text! "11730..11739  ; XID_Continue # Nd  [10] AHOM DIGIT ZERO..AHOM DIGIT NINE",
text! "11740..11746  ; XID_Continue # Lo   [7] AHOM LETTER CA..AHOM LETTER LLA",
text! "11800..1182B  ; XID_Continue # Lo  [44] DOGRA LETTER A..DOGRA LETTER RRA",
text! "1182C..1182E  ; XID_Continue # Mc   [3] DOGRA VOWEL SIGN AA..DOGRA VOWEL SIGN II",
text! "1182F..11837  ; XID_Continue # Mn   [9] DOGRA VOWEL SIGN U..DOGRA SIGN ANUSVARA",
text! "11838         ; XID_Continue # Mc       DOGRA SIGN VISARGA",
text! "11839..1183A  ; XID_Continue # Mn   [2] DOGRA SIGN VIRAMA..DOGRA SIGN NUKTA",
text! "118A0..118DF  ; XID_Continue # L&  [64] WARANG CITI CAPITAL LETTER NGAA..WARANG CITI SMALL LETTER VIYO",
text! "118E0..118E9  ; XID_Continue # Nd  [10] WARANG CITI DIGIT ZERO..WARANG CITI DIGIT NINE",
text! "118FF..11906  ; XID_Continue # Lo   [8] WARANG CITI OM..DIVES AKURU LETTER E",
text! "11909         ; XID_Continue # Lo       DIVES AKURU LETTER O",
text! "1190C..11913  ; XID_Continue # Lo   [8] DIVES AKURU LETTER KA..DIVES AKURU LETTER JA",
text! "11915..11916  ; XID_Continue # Lo   [2] DIVES AKURU LETTER NYA..DIVES AKURU LETTER TTA",
text! "11918..1192F  ; XID_Continue # Lo  [24] DIVES AKURU LETTER DDA..DIVES AKURU LETTER ZA",
text! "11930..11935  ; XID_Continue # Mc   [6] DIVES AKURU VOWEL SIGN AA..DIVES AKURU VOWEL SIGN E",
text! "11937..11938  ; XID_Continue # Mc   [2] DIVES AKURU VOWEL SIGN AI..DIVES AKURU VOWEL SIGN O",
text! "1193B..1193C  ; XID_Continue # Mn   [2] DIVES AKURU SIGN ANUSVARA..DIVES AKURU SIGN CANDRABINDU",
text! "1193D         ; XID_Continue # Mc       DIVES AKURU SIGN HALANTA",
text! "1193E         ; XID_Continue # Mn       DIVES AKURU VIRAMA",
text! "1193F         ; XID_Continue # Lo       DIVES AKURU PREFIXED NASAL SIGN",
text! "11940         ; XID_Continue # Mc       DIVES AKURU MEDIAL YA",
text! "11941         ; XID_Continue # Lo       DIVES AKURU INITIAL RA",
text! "11942         ; XID_Continue # Mc       DIVES AKURU MEDIAL RA",
text! "11943         ; XID_Continue # Mn       DIVES AKURU SIGN NUKTA",
text! "11950..11959  ; XID_Continue # Nd  [10] DIVES AKURU DIGIT ZERO..DIVES AKURU DIGIT NINE",
text! "119A0..119A7  ; XID_Continue # Lo   [8] NANDINAGARI LETTER A..NANDINAGARI LETTER VOCALIC RR",
text! "119AA..119D0  ; XID_Continue # Lo  [39] NANDINAGARI LETTER E..NANDINAGARI LETTER RRA",
text! "119D1..119D3  ; XID_Continue # Mc   [3] NANDINAGARI VOWEL SIGN AA..NANDINAGARI VOWEL SIGN II",
text! "119D4..119D7  ; XID_Continue # Mn   [4] NANDINAGARI VOWEL SIGN U..NANDINAGARI VOWEL SIGN VOCALIC RR",
text! "119DA..119DB  ; XID_Continue # Mn   [2] NANDINAGARI VOWEL SIGN E..NANDINAGARI VOWEL SIGN AI",
text! "119DC..119DF  ; XID_Continue # Mc   [4] NANDINAGARI VOWEL SIGN O..NANDINAGARI SIGN VISARGA",
text! "119E0         ; XID_Continue # Mn       NANDINAGARI SIGN VIRAMA",
text! "119E1         ; XID_Continue # Lo       NANDINAGARI SIGN AVAGRAHA",
text! "119E3         ; XID_Continue # Lo       NANDINAGARI HEADSTROKE",
text! "119E4         ; XID_Continue # Mc       NANDINAGARI VOWEL SIGN PRISHTHAMATRA E",
text! "11A00         ; XID_Continue # Lo       ZANABAZAR SQUARE LETTER A",
text! "11A01..11A0A  ; XID_Continue # Mn  [10] ZANABAZAR SQUARE VOWEL SIGN I..ZANABAZAR SQUARE VOWEL LENGTH MARK",
text! "11A0B..11A32  ; XID_Continue # Lo  [40] ZANABAZAR SQUARE LETTER KA..ZANABAZAR SQUARE LETTER KSSA",
text! "11A33..11A38  ; XID_Continue # Mn   [6] ZANABAZAR SQUARE FINAL CONSONANT MARK..ZANABAZAR SQUARE SIGN ANUSVARA",
text! "11A39         ; XID_Continue # Mc       ZANABAZAR SQUARE SIGN VISARGA",
text! "11A3A         ; XID_Continue # Lo       ZANABAZAR SQUARE CLUSTER-INITIAL LETTER RA",
text! "11A3B..11A3E  ; XID_Continue # Mn   [4] ZANABAZAR SQUARE CLUSTER-FINAL LETTER YA..ZANABAZAR SQUARE CLUSTER-FINAL LETTER VA",
text! "11A47         ; XID_Continue # Mn       ZANABAZAR SQUARE SUBJOINER",
text! "11A50         ; XID_Continue # Lo       SOYOMBO LETTER A",
text! "11A51..11A56  ; XID_Continue # Mn   [6] SOYOMBO VOWEL SIGN I..SOYOMBO VOWEL SIGN OE",
text! "11A57..11A58  ; XID_Continue # Mc   [2] SOYOMBO VOWEL SIGN AI..SOYOMBO VOWEL SIGN AU",
text! "11A59..11A5B  ; XID_Continue # Mn   [3] SOYOMBO VOWEL SIGN VOCALIC R..SOYOMBO VOWEL LENGTH MARK",
text! "11A5C..11A89  ; XID_Continue # Lo  [46] SOYOMBO LETTER KA..SOYOMBO CLUSTER-INITIAL LETTER SA",
text! "11A8A..11A96  ; XID_Continue # Mn  [13] SOYOMBO FINAL CONSONANT SIGN G..SOYOMBO SIGN ANUSVARA",
text! "11A97         ; XID_Continue # Mc       SOYOMBO SIGN VISARGA",
text! "11A98..11A99  ; XID_Continue # Mn   [2] SOYOMBO GEMINATION MARK..SOYOMBO SUBJOINER",
text! "11A9D         ; XID_Continue # Lo       SOYOMBO MARK PLUTA",
text! "11AB0..11AF8  ; XID_Continue # Lo  [73] CANADIAN SYLLABICS NATTILIK HI..PAU CIN HAU GLOTTAL STOP FINAL",
text! "11B60         ; XID_Continue # Mn       SHARADA VOWEL SIGN OE",
text! "11B61         ; XID_Continue # Mc       SHARADA VOWEL SIGN OOE",
text! "11B62..11B64  ; XID_Continue # Mn   [3] SHARADA VOWEL SIGN UE..SHARADA VOWEL SIGN SHORT E",
text! "11B65         ; XID_Continue # Mc       SHARADA VOWEL SIGN SHORT O",
text! "11B66         ; XID_Continue # Mn       SHARADA VOWEL SIGN CANDRA E",
text! "11B67         ; XID_Continue # Mc       SHARADA VOWEL SIGN CANDRA O"]

/-- lines 10433-10496 -/
def derivedCore163 : List Nat := [
text! "11BC0..11BE0  ; XID_Continue # Lo  [33] SUNUWAR LETTER DEVI..SUNUWAR LETTER KLOKO",
text! "11BF0..11BF9  ; XID_Continue # Nd  [10] SUNUWAR DIGIT ZERO..SUNUWAR DIGIT NINE",
text! "11C00..11C08  ; XID_Continue # Lo   [9] BHAIKSUKI LETTER A..BHAIKSUKI LETTER VOCALIC L",
text! "11C0A..11C2E  ; XID_Continue # Lo  [37] BHAIKSUKI LETTER E..BHAIKSUKI LETTER HA",
text! "11C2F         ; XID_Continue # Mc       BHAIKSUKI VOWEL SIGN AA",
text! "11C30..11C36  ; XID_Continue # Mn   [7] BHAIKSUKI VOWEL SIGN I..BHAIKSUKI VOWEL SIGN VOCALIC L",
text! "11C38..11C3D  ; XID_Continue # Mn   [6] BHAIKSUKI VOWEL SIGN E..BHAIKSUKI SIGN ANUSVARA",
text! "11C3E         ; XID_Continue # Mc       BHAIKSUKI SIGN VISARGA",
text! "11C3F         ; XID_Continue # Mn       BHAIKSUKI SIGN VIRAMA",
text! "11C40         ; XID_Continue # Lo       BHAIKSUKI SIGN AVAGRAHA",
text! "11C50..11C59  ; XID_Continue # Nd  [10] BHAIKSUKI DIGIT ZERO..BHAIKSUKI DIGIT NINE",
text! "11C72..11C8F  ; XID_Continue # Lo  [30] MARCHEN LETTER KA..MARCHEN LETTER A",
text! "11C92..11CA7  ; XID_Continue # Mn  [22] MARCHEN SUBJOINED LETTER KA..MARCHEN SUBJOINED LETTER ZA",
text! "11CA9         ; XID_Continue # Mc       MARCHEN SUBJOINED LETTER YA",
text! "11CAA..11CB0  ; XID_Continue # Mn   [7] MARCHEN SUBJOINED LETTER RA..MARCHEN VOWEL SIGN AA",
text! "11CB1         ; XID_Continue # Mc       MARCHEN VOWEL SIGN I",
text! "11CB2..11CB3  ; XID_Continue # Mn   [2] MARCHEN VOWEL SIGN U..MARCHEN VOWEL SIGN E",
text! "11CB4         ; XID_Continue # Mc       MARCHEN VOWEL SIGN O",
text! "11CB5..11CB6  ; XID_Continue # Mn   [2] MARCHEN SIGN ANUSVARA..MARCHEN SIGN CANDRABINDU",
text! "11D00..11D06  ; XID_Continue # Lo   [7] MASARAM GONDI LETTER A..MASARAM GONDI LETTER E",
text! "11D08..11D09  ; XID_Continue # Lo   [2] MASARAM GONDI LETTER AI..MASARAM GONDI LETTER O",
text! "11D0B..11D30  ; XID_Continue # Lo  [38] MASARAM GONDI LETTER AU..MASARAM GONDI LETTER TRA",
text! "11D31..11D36  ; XID_Continue # Mn   [6] MASARAM GONDI VOWEL SIGN AA..MASARAM GONDI VOWEL SIGN VOCALIC R",
text! "11D3A         ; XID_Continue # Mn       MASARAM GONDI VOWEL SIGN E",
text! "11D3C..11D3D  ; XID_Continue # Mn   [2] MASARAM GONDI VOWEL SIGN AI..MASARAM GONDI VOWEL SIGN O",
text! "11D3F..11D45  ; XID_Continue # Mn   [7] MASARAM GONDI VOWEL SIGN AU..MASARAM GONDI VIRAMA",
text! "11D46         ; XID_Continue # Lo       MASARAM GONDI REPHA",
text! "11D47         ; XID_Continue # Mn       MASARAM GONDI RA-KARA",
text! "11D50..11D59  ; XID_Continue # Nd  [10] MASARAM GONDI DIGIT ZERO..MASARAM GONDI DIGIT NINE",
text! "11D60..11D65  ; XID_Continue # Lo   [6] GUNJALA GONDI LETTER A..GUNJALA GONDI LETTER UU",
text! "11D67..11D68  ; XID_Continue # Lo   [2] GUNJALA GONDI LETTER EE..GUNJALA GONDI LETTER AI",
text! "11D6A..11D89  ; XID_Continue # Lo  [32] GUNJALA GONDI LETTER OO..GUNJALA GONDI LETTER SA",
text! "11D8A..11D8E  ; XID_Continue # Mc   [5] GUNJALA GONDI VOWEL SIGN AA..GUNJALA GONDI VOWEL SIGN UU",
text! "11D90..11D91  ; XID_Continue # Mn   [2] GUNJALA GONDI VOWEL SIGN EE..GUNJALA GONDI VOWEL SIGN AI",
text! "11D93..11D94  ; XID_Continue # Mc   [2] GUNJALA GONDI VOWEL SIGN OO..GUNJALA GONDI VOWEL SIGN AU",
text! "11D95         ; XID_Continue # Mn       GUNJALA GONDI SIGN ANUSVARA",
text! "11D96         ; XID_Continue # Mc       GUNJALA GONDI SIGN VISARGA",
text! "11D97         ; XID_Continue # Mn       GUNJALA GONDI VIRAMA",
text! "11D98         ; XID_Continue # Lo       GUNJALA GONDI OM",
text! "11DA0..11DA9  ; XID_Continue # Nd  [10] GUNJALA GONDI DIGIT ZERO..GUNJALA GONDI DIGIT NINE",
text! "11DB0..11DD8  ; XID_Continue # Lo  [41] TOLONG SIKI LETTER I..TOLONG SIKI LETTER RRH",
text! "11DD9         ; XID_Continue # Lm       TOLONG SIKI SIGN SELA",
text! "11DDA..11DDB  ; XID_Continue # Lo   [2] TOLONG SIKI SIGN HECAKA..TOLONG SIKI UNGGA",
text! "11DE0..11DE9  ; XID_Continue # Nd  [10] TOLONG SIKI DIGIT ZERO..TOLONG SIKI DIGIT NINE",
text! "11EE0..11EF2  ; XID_Continue # Lo  [19] MAKASAR LETTER KA..MAKASAR ANGKA",
text! "11EF3..11EF4  ; XID_Continue # Mn   [2] MAKASAR VOWEL SIGN I..MAKASAR VOWEL SIGN U",
text! "11EF5..11EF6  ; XID_Continue # Mc   [2] MAKASAR VOWEL SIGN E..MAKASAR VOWEL SIGN O",
text! "11F00..11F01  ; XID_Continue # Mn   [2] KAWI SIGN CANDRABINDU..KAWI SIGN ANUSVARA",
text! "11F02         ; XID_Continue # Lo       KAWI SIGN REPHA",
text! "11F03         ; XID_Continue # Mc       KAWI SIGN VISARGA",
text! "11F04..11F10  ; XID_Continue # Lo  [13] KAWI LETTER A..KAWI LETTER O",
text! "11F12..11F33  ; XID_Continue # Lo  [34] KAWI LETTER KA..KAWI LETTER JNYA",
text! "11F34..11F35  ; XID_Continue # Mc   [2] KAWI VOWEL SIGN AA..KAWI VOWEL SIGN ALTERNATE AA",
text! "11F36..11F3A  ; XID_Continue # Mn   [5] KAWI VOWEL SIGN I..KAWI VOWEL SIGN VOCALIC R",
text! "11F3E..11F3F  ; XID_Continue # Mc   [2] KAWI VOWEL SIGN E..KAWI VOWEL SIGN AI",
text! "11F40         ; XID_Continue # Mn       KAWI VOWEL SIGN EU",
text! "11F41         ; XID_Continue # Mc       KAWI SIGN KILLER",
text! "11F42         ; XID_Continue # Mn       KAWI CONJOINER",
text! "11F50..11F59  ; XID_Continue # Nd  [10] KAWI DIGIT ZERO..KAWI DIGIT NINE",
text! "11F5A         ; XID_Continue # Mn       KAWI SIGN NUKTA",
text! "11FB0         ; XID_Continue # Lo       LISU LETTER YHA",
text! "12000..12399  ; XID_Continue # Lo [922] CUNEIFORM SIGN A..CUNEIFORM SIGN U U",
text! "12400..1246E  ; XID_Continue # Nl [111] CUNEIFORM NUMERIC SIGN TWO ASH..CUNEIFORM NUMERIC SIGN NINE U VARIANT FORM",
text! "12480..12543  ; XID_Continue # Lo [196] CUNEIFORM SIGN AB TIMES NUN TENU..CUNEIFORM SIGN ZU5 TIMES THREE DISH TENU"]

/-- lines 10497-10560 -/
def derivedCore164 : List Nat := [
text! "12F90..12FF0  ; XID_Continue # Lo  [97] CYPRO-MINOAN SIGN CM001..CYPRO-MINOAN SIGN CM114",
text! "13000..1342F  ; XID_Continue # Lo [1072] EGYPTIAN HIEROGLYPH A001..EGYPTIAN HIEROGLYPH V011D",
text! "13440         ; XID_Continue # Mn       EGYPTIAN HIEROGLYPH MIRROR HORIZONTALLY",
text! "13441..13446  ; XID_Continue # Lo   [6] EGYPTIAN HIEROGLYPH FULL BLANK..EGYPTIAN HIEROGLYPH WIDE LOST SIGN",
text! "13447..13455  ; XID_Continue # Mn  [15] EGYPTIAN HIEROGLYPH MODIFIER DAMAGED AT TOP START..EGYPTIAN HIEROGLYPH MODIFIER DAMAGED",
text! "13460..143FA  ; XID_Continue # Lo [3995] EGYPTIAN HIEROGLYPH-13460..EGYPTIAN HIEROGLYPH-143FA",
text! "14400..14646  ; XID_Continue # Lo [583] ANATOLIAN HIEROGLYPH A001..ANATOLIAN HIEROGLYPH A530",
text! "16100..1611D  ; XID_Continue # Lo  [30] GURUNG KHEMA LETTER A..GURUNG KHEMA LETTER SA",
text! "1611E..16129  ; XID_Continue # Mn  [12] GURUNG KHEMA VOWEL SIGN AA..GURUNG KHEMA VOWEL LENGTH MARK",
text! "1612A..1612C  ; XID_Continue # Mc   [3] GURUNG KHEMA CONSONANT SIGN MEDIAL YA..GURUNG KHEMA CONSONANT SIGN MEDIAL HA",
text! "1612D..1612F  ; XID_Continue # Mn   [3] GURUNG KHEMA SIGN ANUSVARA..GURUNG KHEMA SIGN THOLHOMA",
text! "16130..16139  ; XID_Continue # Nd  [10] GURUNG KHEMA DIGIT ZERO..GURUNG KHEMA DIGIT NINE",
text! "16800..16A38  ; XID_Continue # Lo [569] BAMUM LETTER PHASE-A NGKUE MFON..BAMUM LETTER PHASE-F VUEQ",
text! "16A40..16A5E  ; XID_Continue # Lo  [31] MRO LETTER TA..MRO LETTER TEK",
text! "16A60..16A69  ; XID_Continue # Nd  [10] MRO DIGIT ZERO..MRO DIGIT NINE",
text! "16A70..16ABE  ; XID_Continue # Lo  [79] TANGSA LETTER OZ..TANGSA LETTER ZA",
text! "16AC0..16AC9  ; XID_Continue # Nd  [10] TANGSA DIGIT ZERO..TANGSA DIGIT NINE",
text! "16AD0..16AED  ; XID_Continue # Lo  [30] BASSA VAH LETTER ENNI..BASSA VAH LETTER I",
text! "16AF0..16AF4  ; XID_Continue # Mn   [5] BASSA VAH COMBINING HIGH TONE..BASSA VAH COMBINING HIGH-LOW TONE",
text! "16B00..16B2F  ; XID_Continue # Lo  [48] PAHAWH HMONG VOWEL KEEB..PAHAWH HMONG CONSONANT CAU",
text! "16B30..16B36  ; XID_Continue # Mn   [7] PAHAWH HMONG MARK CIM TUB..PAHAWH HMONG MARK CIM TAUM",
text! "16B40..16B43  ; XID_Continue # Lm   [4] PAHAWH HMONG SIGN VOS SEEV..PAHAWH HMONG SIGN IB YAM",
text! "16B50..16B59  ; XID_Continue # Nd  [10] PAHAWH HMONG DIGIT ZERO..PAHAWH HMONG DIGIT NINE",
text! "16B63..16B77  ; XID_Continue # Lo  [21] PAHAWH HMONG SIGN VOS LUB..PAHAWH HMONG SIGN CIM NRES TOS",
text! "16B7D..16B8F  ; XID_Continue # Lo  [19] PAHAWH HMONG CLAN SIGN TSHEEJ..PAHAWH HMONG CLAN SIGN VWJ",
text! "16D40..16D42  ; XID_Continue # Lm   [3] KIRAT RAI SIGN ANUSVARA..KIRAT RAI SIGN VISARGA",
text! "16D43..16D6A  ; XID_Continue # Lo  [40] KIRAT RAI LETTER A..KIRAT RAI VOWEL SIGN AU",
text! "16D6B..16D6C  ; XID_Continue # Lm   [2] KIRAT RAI SIGN VIRAMA..KIRAT RAI SIGN SAAT",
text! "16D70..16D79  ; XID_Continue # Nd  [10] KIRAT RAI DIGIT ZERO..KIRAT RAI DIGIT NINE",
text! "16E40..16E7F  ; XID_Continue # L&  [64] MEDEFAIDRIN CAPITAL LETTER M..MEDEFAIDRIN SMALL LETTER Y",
text! "16EA0..16EB8  ; XID_Continue # L&  [25] BERIA ERFE CAPITAL LETTER ARKAB..BERIA ERFE CAPITAL LETTER AY",
text! "16EBB..16ED3  ; XID_Continue # L&  [25] BERIA ERFE SMALL LETTER ARKAB..BERIA ERFE SMALL LETTER AY",
text! "16F00..16F4A  ; XID_Continue # Lo  [75] MIAO LETTER PA..MIAO LETTER RTE",
text! "16F4F         ; XID_Continue # Mn       MIAO SIGN CONSONANT MODIFIER BAR",
text! "16F50         ; XID_Continue # Lo       MIAO LETTER NASALIZATION",
text! "16F51..16F87  ; XID_Continue # Mc  [55] MIAO SIGN ASPIRATION..MIAO VOWEL SIGN UI",
text! "16F8F..16F92  ; XID_Continue # Mn   [4] MIAO TONE RIGHT..MIAO TONE BELOW",
text! "16F93..16F9F  ; XID_Continue # Lm  [13] MIAO LETTER TONE-2..MIAO LETTER REFORMED TONE-8",
text! "16FE0..16FE1  ; XID_Continue # Lm   [2] TANGUT ITERATION MARK..NUSHU ITERATION MARK",
text! "16FE3         ; XID_Continue # Lm       OLD CHINESE ITERATION MARK",
text! "16FE4         ; XID_Continue # Mn       KHITAN SMALL SCRIPT FILLER",
text! "16FF0..16FF1  ; XID_Continue # Mc   [2] VIETNAMESE ALTERNATE READING MARK CA..VIETNAMESE ALTERNATE READING MARK NHAY",
text! "16FF2..16FF3  ; XID_Continue # Lm   [2] CHINESE SMALL SIMPLIFIED ER..CHINESE SMALL TRADITIONAL ER",
text! "16FF4..16FF6  ; XID_Continue # Nl   [3] YANGQIN SIGN SLOW ONE BEAT..YANGQIN SIGN SLOW TWO BEATS",
text! "17000..18CD5  ; XID_Continue # Lo [7382] TANGUT IDEOGRAPH-17000..KHITAN SMALL SCRIPT CHARACTER-18CD5",
text! "18CFF..18D1E  ; XID_Continue # Lo  [32] KHITAN SMALL SCRIPT CHARACTER-18CFF..TANGUT IDEOGRAPH-18D1E",
text! "18D80..18DF2  ; XID_Continue # Lo [115] TANGUT COMPONENT-769..TANGUT COMPONENT-883",
text! "1AFF0..1AFF3  ; XID_Continue # Lm   [4] KATAKANA LETTER MINNAN TONE-2..KATAKANA LETTER MINNAN TONE-5",
text! "1AFF5..1AFFB  ; XID_Continue # Lm   [7] KATAKANA LETTER MINNAN TONE-7..KATAKANA LETTER MINNAN NASALIZED TONE-5",
text! "1AFFD..1AFFE  ; XID_Continue # Lm   [2] KATAKANA LETTER MINNAN NASALIZED TONE-7..KATAKANA LETTER MINNAN NASALIZED TONE-8",
text! "1B000..1B122  ; XID_Continue # Lo [291] KATAKANA LETTER ARCHAIC E..KATAKANA LETTER ARCHAIC WU",
text! "1B132         ; XID_Continue # Lo       HIRAGANA LETTER SMALL KO",
text! "1B150..1B152  ; XID_Continue # Lo   [3] HIRAGANA LETTER SMALL WI..HIRAGANA LETTER SMALL WO",
text! "1B155         ; XID_Continue # Lo       KATAKANA LETTER SMALL KO",
text! "1B164..1B167  ; XID_Continue # Lo   [4] KATAKANA LETTER SMALL WI..KATAKANA LETTER SMALL N",
text! "1B170..1B2FB  ; XID_Continue # Lo [396] NUSHU CHARACTER-1B170..NUSHU CHARACTER-1B2FB",
text! "1BC00..1BC6A  ; XID_Continue # Lo [107] DUPLOYAN LETTER H..DUPLOYAN LETTER VOCALIC M",
text! "1BC70..1BC7C  ; XID_Continue # Lo  [13] DUPLOYAN AFFIX LEFT HORIZONTAL SECANT..DUPLOYAN AFFIX ATTACHED TANGENT HOOK",
text! "1BC80..1BC88  ; XID_Continue # Lo   [9] DUPLOYAN AFFIX HIGH ACUTE..DUPLOYAN AFFIX HIGH VERTICAL",
text! "1BC90..1BC99  ; XID_Continue # Lo  [10] DUPLOYAN AFFIX LOW ACUTE..DUPLOYAN AFFIX LOW ARROW",
text! "1BC9D..1BC9E  ; XID_Continue # Mn   [2] DUPLOYAN THICK LETTER SELECTOR..DUPLOYAN DOUBLE MARK",
text! "1CCF0..1CCF9  ; XID_Continue # Nd  [10] OUTLINED DIGIT ZERO..OUTLINED DIGIT NINE",
text! "1CF00..1CF2D  ; XID_Continue # Mn  [46] ZNAMENNY COMBINING MARK GORAZDO NIZKO S KRYZHEM ON LEFT..ZNAMENNY COMBINING MARK KRYZH ON LEFT",
text! "1CF30..1CF46  ; XID_Continue # Mn  [23] ZNAMENNY COMBINING TONAL RANGE MARK MRACHNO..ZNAMENNY PRIZNAK MODIFIER ROG"]

/-- lines 10561-10624 -/
def derivedCore165 : List Nat := [
text! "1D165..1D166  ; XID_Continue # Mc   [2] MUSICAL SYMBOL COMBINING STEM..MUSICAL SYMBOL COMBINING SPRECHGESANG STEM",
text! "1D167..1D169  ; XID_Continue # Mn   [3] MUSICAL SYMBOL COMBINING TREMOLO-1..MUSICAL SYMBOL COMBINING TREMOLO-3",
text! "1D16D..1D172  ; XID_Continue # Mc   [6] MUSICAL SYMBOL COMBINING AUGMENTATION DOT..MUSICAL SYMBOL COMBINING FLAG-5",
text! "1D17B..1D182  ; XID_Continue # Mn   [8] MUSICAL SYMBOL COMBINING ACCENT..MUSICAL SYMBOL COMBINING LOURE",
text! "1D185..1D18B  ; XID_Continue # Mn   [7] MUSICAL SYMBOL COMBINING DOIT..MUSICAL SYMBOL COMBINING TRIPLE TONGUE",
text! "1D1AA..1D1AD  ; XID_Continue # Mn   [4] MUSICAL SYMBOL COMBINING DOWN BOW..MUSICAL SYMBOL COMBINING SNAP PIZZICATO",
text! "1D242..1D244  ; XID_Continue # Mn   [3] COMBINING GREEK MUSICAL TRISEME..COMBINING GREEK MUSICAL PENTASEME",
text! "1D400..1D454  ; XID_Continue # L&  [85] MATHEMATICAL BOLD CAPITAL A..MATHEMATICAL ITALIC SMALL G",
text! "1D456..1D49C  ; XID_Continue # L&  [71] MATHEMATICAL ITALIC SMALL I..MATHEMATICAL SCRIPT CAPITAL A",
text! "1D49E..1D49F  ; XID_Continue # L&   [2] MATHEMATICAL SCRIPT CAPITAL C..MATHEMATICAL SCRIPT CAPITAL D",
text! "1D4A2         ; XID_Continue # L&       MATHEMATICAL SCRIPT CAPITAL G",
text! "1D4A5..1D4A6  ; XID_Continue # L&   [2] MATHEMATICAL SCRIPT CAPITAL J..MATHEMATICAL SCRIPT CAPITAL K",
text! "1D4A9..1D4AC  ; XID_Continue # L&   [4] MATHEMATICAL SCRIPT CAPITAL N..MATHEMATICAL SCRIPT CAPITAL Q",
text! "1D4AE..1D4B9  ; XID_Continue # L&  [12] MATHEMATICAL SCRIPT CAPITAL S..MATHEMATICAL SCRIPT SMALL D",
text! "1D4BB         ; XID_Continue # L&       MATHEMATICAL SCRIPT SMALL F",
text! "1D4BD..1D4C3  ; XID_Continue # L&   [7] MATHEMATICAL SCRIPT SMALL H..MATHEMATICAL SCRIPT SMALL N",
text! "1D4C5..1D505  ; XID_Continue # L&  [65] MATHEMATICAL SCRIPT SMALL P..MATHEMATICAL FRAKTUR CAPITAL B",
text! "1D507..1D50A  ; XID_Continue # L&   [4] MATHEMATICAL FRAKTUR CAPITAL D..MATHEMATICAL FRAKTUR CAPITAL G",
text! "1D50D..1D514  ; XID_Continue # L&   [8] MATHEMATICAL FRAKTUR CAPITAL J..MATHEMATICAL FRAKTUR CAPITAL Q",
text! "1D516..1D51C  ; XID_Continue # L&   [7] MATHEMATICAL FRAKTUR CAPITAL S..MATHEMATICAL FRAKTUR CAPITAL Y",
text! "1D51E..1D539  ; XID_Continue # L&  [28] MATHEMATICAL FRAKTUR SMALL A..MATHEMATICAL DOUBLE-STRUCK CAPITAL B",
text! "1D53B..1D53E  ; XID_Continue # L&   [4] MATHEMATICAL DOUBLE-STRUCK CAPITAL D..MATHEMATICAL DOUBLE-STRUCK CAPITAL G",
text! "1D540..1D544  ; XID_Continue # L&   [5] MATHEMATICAL DOUBLE-STRUCK CAPITAL I..MATHEMATICAL DOUBLE-STRUCK CAPITAL M",
text! "1D546         ; XID_Continue # L&       MATHEMATICAL DOUBLE-STRUCK CAPITAL O",
text! "1D54A..1D550  ; XID_Continue # L&   [7] MATHEMATICAL DOUBLE-STRUCK CAPITAL S..MATHEMATICAL DOUBLE-STRUCK CAPITAL Y",
text! "1D552..1D6A5  ; XID_Continue # L& [340] MATHEMATICAL DOUBLE-STRUCK SMALL A..MATHEMATICAL ITALIC SMALL DOTLESS J",
text! "1D6A8..1D6C0  ; XID_Continue # L&  [25] MATHEMATICAL BOLD CAPITAL ALPHA..MATHEMATICAL BOLD CAPITAL OMEGA",
text! "1D6C2..1D6DA  ; XID_Continue # L&  [25] MATHEMATICAL BOLD SMALL ALPHA..MATHEMATICAL BOLD SMALL OMEGA",
text! "1D6DC..1D6FA  ; XID_Continue # L&  [31] MATHEMATICAL BOLD EPSILON SYMBOL..MATHEMATICAL ITALIC CAPITAL OMEGA",
text! "1D6FC..1D714  ; XID_Continue # L&  [25] MATHEMATICAL ITALIC SMALL ALPHA..MATHEMATICAL ITALIC SMALL OMEGA",
text! "1D716..1D734  ; XID_Continue # L&  [31] MATHEMATICAL ITALIC EPSILON SYMBOL..MATHEMATICAL BOLD ITALIC CAPITAL OMEGA",
text! "1D736..1D74E  ; XID_Continue # L&  [25] MATHEMATICAL BOLD ITALIC SMALL ALPHA..MATHEMATICAL BOLD ITALIC SMALL OMEGA",
text! "1D750..1D76E  ; XID_Continue # L&  [31] MATHEMATICAL BOLD ITALIC EPSILON SYMBOL..MATHEMATICAL SANS-SERIF BOLD CAPITAL OMEGA",
text! "1D770..1D788  ; XID_Continue # L&  [25] MATHEMATICAL SANS-SERIF BOLD SMALL ALPHA..MATHEMATICAL SANS-SERIF BOLD SMALL OMEGA",
text! "1D78A..1D7A8  ; XID_Continue # L&  [31] MATHEMATICAL SANS-SERIF BOLD EPSILON SYMBOL..MATHEMATICAL SANS-SERIF BOLD ITALIC CAPITAL OMEGA",
text! "1D7AA..1D7C2  ; XID_Continue # L&  [25] MATHEMATICAL SANS-SERIF BOLD ITALIC SMALL ALPHA..MATHEMATICAL SANS-SERIF BOLD ITALIC SMALL OMEGA",
text! "1D7C4..1D7CB  ; XID_Continue # L&   [8] MATHEMATICAL SANS-SERIF BOLD ITALIC EPSILON SYMBOL..MATHEMATICAL BOLD SMALL DIGAMMA",
text! "1D7CE..1D7FF  ; XID_Continue # Nd  [50] MATHEMATICAL BOLD DIGIT ZERO..MATHEMATICAL MONOSPACE DIGIT NINE",
text! "1DA00..1DA36  ; XID_Continue # Mn  [55] SIGNWRITING HEAD RIM..SIGNWRITING AIR SUCKING IN",
text! "1DA3B..1DA6C  ; XID_Continue # Mn  [50] SIGNWRITING MOUTH CLOSED NEUTRAL..SIGNWRITING EXCITEMENT",
text! "1DA75         ; XID_Continue # Mn       SIGNWRITING UPPER BODY TILTING FROM HIP JOINTS",
text! "1DA84         ; XID_Continue # Mn       SIGNWRITING LOCATION HEAD NECK",
text! "1DA9B..1DA9F  ; XID_Continue # Mn   [5] SIGNWRITING FILL MODIFIER-2..SIGNWRITING FILL MODIFIER-6",
text! "1DAA1..1DAAF  ; XID_Continue # Mn  [15] SIGNWRITING ROTATION MODIFIER-2..SIGNWRITING ROTATION MODIFIER-16",
text! "1DF00..1DF09  ; XID_Continue # L&  [10] LATIN SMALL LETTER FENG DIGRAPH WITH TRILL..LATIN SMALL LETTER T WITH HOOK AND RETROFLEX HOOK",
text! "1DF0A         ; XID_Continue # Lo       LATIN LETTER RETROFLEX CLICK WITH RETROFLEX HOOK",
text! "1DF0B..1DF1E  ; XID_Continue # L&  [20] LATIN SMALL LETTER ESH WITH DOUBLE BAR..LATIN SMALL LETTER S WITH CURL",
text! "1DF25..1DF2A  ; XID_Continue # L&   [6] LATIN SMALL LETTER D WITH MID-HEIGHT LEFT HOOK..LATIN SMALL LETTER T WITH MID-HEIGHT LEFT HOOK",
text! "1E000..1E006  ; XID_Continue # Mn   [7] COMBINING GLAGOLITIC LETTER AZU..COMBINING GLAGOLITIC LETTER ZHIVETE",
text! "1E008..1E018  ; XID_Continue # Mn  [17] COMBINING GLAGOLITIC LETTER ZEMLJA..COMBINING GLAGOLITIC LETTER HERU",
text! "1E01B..1E021  ; XID_Continue # Mn   [7] COMBINING GLAGOLITIC LETTER SHTA..COMBINING GLAGOLITIC LETTER YATI",
text! "1E023..1E024  ; XID_Continue # Mn   [2] COMBINING GLAGOLITIC LETTER YU..COMBINING GLAGOLITIC LETTER SMALL YUS",
text! "1E026..1E02A  ; XID_Continue # Mn   [5] COMBINING GLAGOLITIC LETTER YO..COMBINING GLAGOLITIC LETTER FITA",
text! "1E030..1E06D  ; XID_Continue # Lm  [62] MODIFIER LETTER CYRILLIC SMALL A..MODIFIER LETTER CYRILLIC SMALL STRAIGHT U WITH STROKE",
text! "1E08F         ; XID_Continue # Mn       COMBINING CYRILLIC SMALL LETTER BYELORUSSIAN-UKRAINIAN I",
text! "1E100..1E12C  ; XID_Continue # Lo  [45] NYIAKENG PUACHUE HMONG LETTER MA..NYIAKENG PUACHUE HMONG LETTER W",
text! "1E130..1E136  ; XID_Continue # Mn   [7] NYIAKENG PUACHUE HMONG TONE-B..NYIAKENG PUACHUE HMONG TONE-D",
text! "1E137..1E13D  ; XID_Continue # Lm   [7] NYIAKENG PUACHUE HMONG SIGN FOR PERSON..NYIAKENG PUACHUE HMONG SYLLABLE LENGTHENER",
text! "1E140..1E149  ; XID_Continue # Nd  [10] NYIAKENG PUACHUE HMONG DIGIT ZERO..NYIAKENG PUACHUE HMONG DIGIT NINE",
text! "1E14E         ; XID_Continue # Lo       NYIAKENG PUACHUE HMONG LOGOGRAM NYAJ",
text! "1E290..1E2AD  ; XID_Continue # Lo  [30] TOTO LETTER PA..TOTO LETTER A",
text! "1E2AE         ; XID_Continue # Mn       TOTO SIGN RISING TONE",
text! "1E2C0..1E2EB  ; XID_Continue # Lo  [44] WANCHO LETTER AA..WANCHO LETTER YIH",
text! "1E2EC..1E2EF  ; XID_Continue # Mn   [4] WANCHO TONE TUP..WANCHO TONE KOINI"]

/-- lines 10625-10688 -/
def derivedCore166 : List Nat := [
text! "1E2F0..1E2F9  ; XID_Continue # Nd  [10] WANCHO DIGIT ZERO..WANCHO DIGIT NINE",
text! "1E4D0..1E4EA  ; XID_Continue # Lo  [27] NAG MUNDARI LETTER O..NAG MUNDARI LETTER ELL",
text! "1E4EB         ; XID_Continue # Lm       NAG MUNDARI SIGN OJOD",
text! "1E4EC..1E4EF  ; XID_Continue # Mn   [4] NAG MUNDARI SIGN MUHOR..NAG MUNDARI SIGN SUTUH",
text! "1E4F0..1E4F9  ; XID_Continue # Nd  [10] NAG MUNDARI DIGIT ZERO..NAG MUNDARI DIGIT NINE",
text! "1E5D0..1E5ED  ; XID_Continue # Lo  [30] OL ONAL LETTER O..OL ONAL LETTER EG",
text! "1E5EE..1E5EF  ; XID_Continue # Mn   [2] OL ONAL SIGN MU..OL ONAL SIGN IKIR",
text! "1E5F0         ; XID_Continue # Lo       OL ONAL SIGN HODDOND",
text! "1E5F1..1E5FA  ; XID_Continue # Nd  [10] OL ONAL DIGIT ZERO..OL ONAL DIGIT NINE",
text! "1E6C0..1E6DE  ; XID_Continue # Lo  [31] TAI YO LETTER LOW KO..TAI YO LETTER HIGH KVO",
text! "1E6E0..1E6E2  ; XID_Continue # Lo   [3] TAI YO LETTER AA..TAI YO LETTER UE",
text! "1E6E3         ; XID_Continue # Mn       TAI YO SIGN UE",
text! "1E6E4..1E6E5  ; XID_Continue # Lo   [2] TAI YO LETTER U..TAI YO LETTER AE",
text! "1E6E6         ; XID_Continue # Mn       TAI YO SIGN AU",
text! "1E6E7..1E6ED  ; XID_Continue # Lo   [7] TAI YO LETTER O..TAI YO LETTER AUE",
text! "1E6EE..1E6EF  ; XID_Continue # Mn   [2] TAI YO SIGN AY..TAI YO SIGN ANG",
text! "1E6F0..1E6F4  ; XID_Continue # Lo   [5] TAI YO LETTER AN..TAI YO LETTER AP",
text! "1E6F5         ; XID_Continue # Mn       TAI YO SIGN OM",
text! "1E6FE         ; XID_Continue # Lo       TAI YO SYMBOL MUEANG",
text! "1E6FF         ; XID_Continue # Lm       TAI YO XAM LAI",
text! "1E7E0..1E7E6  ; XID_Continue # Lo   [7] ETHIOPIC SYLLABLE HHYA..ETHIOPIC SYLLABLE HHYO",
text! "1E7E8..1E7EB  ; XID_Continue # Lo   [4] ETHIOPIC SYLLABLE GURAGE HHWA..ETHIOPIC SYLLABLE HHWE",
text! "1E7ED..1E7EE  ; XID_Continue # Lo   [2] ETHIOPIC SYLLABLE GURAGE MWI..ETHIOPIC SYLLABLE GURAGE MWEE",
text! "1E7F0..1E7FE  ; XID_Continue # Lo  [15] ETHIOPIC SYLLABLE GURAGE QWI..ETHIOPIC SYLLABLE GURAGE PWEE",
text! "1E800..1E8C4  ; XID_Continue # Lo [197] MENDE KIKAKUI SYLLABLE M001 KI..MENDE KIKAKUI SYLLABLE M060 NYON",
text! "1E8D0..1E8D6  ; XID_Continue # Mn   [7] MENDE KIKAKUI COMBINING NUMBER TEENS..MENDE KIKAKUI COMBINING NUMBER MILLIONS",
text! "1E900..1E943  ; XID_Continue # L&  [68] ADLAM CAPITAL LETTER ALIF..ADLAM SMALL LETTER SHA",
text! "1E944..1E94A  ; XID_Continue # Mn   [7] ADLAM ALIF LENGTHENER..ADLAM NUKTA",
text! "1E94B         ; XID_Continue # Lm       ADLAM NASALIZATION MARK",
text! "1E950..1E959  ; XID_Continue # Nd  [10] ADLAM DIGIT ZERO..ADLAM DIGIT NINE",
text! "1EE00..1EE03  ; XID_Continue # Lo   [4] ARABIC MATHEMATICAL ALEF..ARABIC MATHEMATICAL DAL",
text! "1EE05..1EE1F  ; XID_Continue # Lo  [27] ARABIC MATHEMATICAL WAW..ARABIC MATHEMATICAL DOTLESS QAF",
text! "1EE21..1EE22  ; XID_Continue # Lo   [2] ARABIC MATHEMATICAL INITIAL BEH..ARABIC MATHEMATICAL INITIAL JEEM",
text! "1EE24         ; XID_Continue # Lo       ARABIC MATHEMATICAL INITIAL HEH",
text! "1EE27         ; XID_Continue # Lo       ARABIC MATHEMATICAL INITIAL HAH",
text! "1EE29..1EE32  ; XID_Continue # Lo  [10] ARABIC MATHEMATICAL INITIAL YEH..ARABIC MATHEMATICAL INITIAL QAF",
text! "1EE34..1EE37  ; XID_Continue # Lo   [4] ARABIC MATHEMATICAL INITIAL SHEEN..ARABIC MATHEMATICAL INITIAL KHAH",
text! "1EE39         ; XID_Continue # Lo       ARABIC MATHEMATICAL INITIAL DAD",
text! "1EE3B         ; XID_Continue # Lo       ARABIC MATHEMATICAL INITIAL GHAIN",
text! "1EE42         ; XID_Continue # Lo       ARABIC MATHEMATICAL TAILED JEEM",
text! "1EE47         ; XID_Continue # Lo       ARABIC MATHEMATICAL TAILED HAH",
text! "1EE49         ; XID_Continue # Lo       ARABIC MATHEMATICAL TAILED YEH",
text! "1EE4B         ; XID_Continue # Lo       ARABIC MATHEMATICAL TAILED LAM",
text! "1EE4D..1EE4F  ; XID_Continue # Lo   [3] ARABIC MATHEMATICAL TAILED NOON..ARABIC MATHEMATICAL TAILED AIN",
text! "1EE51..1EE52  ; XID_Continue # Lo   [2] ARABIC MATHEMATICAL TAILED SAD..ARABIC MATHEMATICAL TAILED QAF",
text! "1EE54         ; XID_Continue # Lo       ARABIC MATHEMATICAL TAILED SHEEN",
text! "1EE57         ; XID_Continue # Lo       ARABIC MATHEMATICAL TAILED KHAH",
text! "1EE59         ; XID_Continue # Lo       ARABIC MATHEMATICAL TAILED DAD",
text! "1EE5B         ; XID_Continue # Lo       ARABIC MATHEMATICAL TAILED GHAIN",
text! "1EE5D         ; XID_Continue # Lo       ARABIC MATHEMATICAL TAILED DOTLESS NOON",
text! "1EE5F         ; XID_Continue # Lo       ARABIC MATHEMATICAL TAILED DOTLESS QAF",
text! "1EE61..1EE62  ; XID_Continue # Lo   [2] ARABIC MATHEMATICAL STRETCHED BEH..ARABIC MATHEMATICAL STRETCHED JEEM",
text! "1EE64         ; XID_Continue # Lo       ARABIC MATHEMATICAL STRETCHED HEH",
text! "1EE67..1EE6A  ; XID_Continue # Lo   [4] ARABIC MATHEMATICAL STRETCHED HAH..ARABIC MATHEMATICAL STRETCHED KAF",
text! "1EE6C..1EE72  ; XID_Continue # Lo   [7] ARABIC MATHEMATICAL STRETCHED MEEM..ARABIC MATHEMATICAL STRETCHED QAF",
text! "1EE74..1EE77  ; XID_Continue # Lo   [4] ARABIC MATHEMATICAL STRETCHED SHEEN..ARABIC MATHEMATICAL STRETCHED KHAH",
text! "1EE79..1EE7C  ; XID_Continue # Lo   [4] ARABIC MATHEMATICAL STRETCHED DAD..ARABIC MATHEMATICAL STRETCHED DOTLESS BEH",
text! "1EE7E         ; XID_Continue # Lo       ARABIC MATHEMATICAL STRETCHED DOTLESS FEH",
text! "1EE80..1EE89  ; XID_Continue # Lo  [10] ARABIC MATHEMATICAL LOOPED ALEF..ARABIC MATHEMATICAL LOOPED YEH",
text! "1EE8B..1EE9B  ; XID_Continue # Lo  [17] ARABIC MATHEMATICAL LOOPED LAM..ARABIC MATHEMATICAL LOOPED GHAIN",
text! "1EEA1..1EEA3  ; XID_Continue # Lo   [3] ARABIC MATHEMATICAL DOUBLE-STRUCK BEH..ARABIC MATHEMATICAL DOUBLE-STRUCK DAL",
text! "1EEA5..1EEA9  ; XID_Continue # Lo   [5] ARABIC MATHEMATICAL DOUBLE-STRUCK WAW..ARABIC MATHEMATICAL DOUBLE-STRUCK YEH",
text! "1EEAB..1EEBB  ; XID_Continue # Lo  [17] ARABIC MATHEMATICAL DOUBLE-STRUCK LAM..ARABIC MATHEMATICAL DOUBLE-STRUCK GHAIN",
text! "1FBF0..1FBF9  ; XID_Continue # Nd  [10] SEGMENTED DIGIT ZERO..SEGMENTED DIGIT NINE"]

/-- lines 10689-10752 -/
def derivedCore167 : List Nat := [
text! "20000..2A6DF  ; XID_Continue # Lo [42720] CJK UNIFIED IDEOGRAPH-20000..CJK UNIFIED IDEOGRAPH-2A6DF",
text! "2A700..2B81D  ; XID_Continue # Lo [4382] CJK UNIFIED IDEOGRAPH-2A700..CJK UNIFIED IDEOGRAPH-2B81D",
text! "2B820..2CEAD  ; XID_Continue # Lo [5774] CJK UNIFIED IDEOGRAPH-2B820..CJK UNIFIED IDEOGRAPH-2CEAD",
text! "2CEB0..2EBE0  ; XID_Continue # Lo [7473] CJK UNIFIED IDEOGRAPH-2CEB0..CJK UNIFIED IDEOGRAPH-2EBE0",
text! "2EBF0..2EE5D  ; XID_Continue # Lo [622] CJK UNIFIED IDEOGRAPH-2EBF0..CJK UNIFIED IDEOGRAPH-2EE5D",
text! "2F800..2FA1D  ; XID_Continue # Lo [542] CJK COMPATIBILITY IDEOGRAPH-2F800..CJK COMPATIBILITY IDEOGRAPH-2FA1D",
text! "30000..3134A  ; XID_Continue # Lo [4939] CJK UNIFIED IDEOGRAPH-30000..CJK UNIFIED IDEOGRAPH-3134A",
text! "31350..33479  ; XID_Continue # Lo [8490] CJK UNIFIED IDEOGRAPH-31350..CJK UNIFIED IDEOGRAPH-33479",
text! "E0100..E01EF  ; XID_Continue # Mn [240] VARIATION SELECTOR-17..VARIATION SELECTOR-256",
text! "",
text! "# Total code points: 149221",
text! "",
text! "# ================================================",
text! "",
text! "# Derived Property: Default_Ignorable_Code_Point",
text! "#  Generated from",
text! "#    Other_Default_Ignorable_Code_Point",
text! "#  + Cf (Format characters)",
text! "#  + Variation_Selector",
text! "#  - White_Space",
text! "#  - FFF9..FFFB (Interlinear annotation format characters)",
text! "#  - 13430..13440 (Egyptian hieroglyph format characters)",
text! "#  - Prepended_Concatenation_Mark (Exceptional format characters that should be visible)",
text! "#",
text! "# There are currently no stability guarantees for DICP. However, the",
text! "# values of DICP interact with the derivation of XID_Continue",
text! "# and NFKC_CF, for which there are stability guarantees.",
text! "# Maintainers of this property should note that in the",
text! "# unlikely case that the DICP value changes for an existing character",
text! "# which is also XID_Continue=Yes, then exceptions must be put",
text! "# in place to ensure that the NFKC_CF mapping value for that",
text! "# existing character does not change.",
text! "",
text! "00AD          ; Default_Ignorable_Code_Point # Cf       SOFT HYPHEN",
text! "034F          ; Default_Ignorable_Code_Point # Mn       COMBINING GRAPHEME JOINER",
text! "061C          ; Default_Ignorable_Code_Point # Cf       ARABIC LETTER MARK",
text! "115F..1160    ; Default_Ignorable_Code_Point # Lo   [2] HANGUL CHOSEONG FILLER..HANGUL JUNGSEONG FILLER",
text! "17B4..17B5    ; Default_Ignorable_Code_Point # Mn   [2] KHMER VOWEL INHERENT AQ..KHMER VOWEL INHERENT AA",
text! "180B..180D    ; Default_Ignorable_Code_Point # Mn   [3] MONGOLIAN FREE VARIATION SELECTOR ONE..MONGOLIAN FREE VARIATION SELECTOR THREE",
text! "180E          ; Default_Ignorable_Code_Point # Cf       MONGOLIAN VOWEL SEPARATOR",
text! "180F          ; Default_Ignorable_Code_Point # Mn       MONGOLIAN FREE VARIATION SELECTOR FOUR",
text! "200B..200F    ; Default_Ignorable_Code_Point # Cf   [5] ZERO WIDTH SPACE..RIGHT-TO-LEFT MARK",
text! "202A..202E    ; Default_Ignorable_Code_Point # Cf   [5] LEFT-TO-RIGHT EMBEDDING..RIGHT-TO-LEFT OVERRIDE",
text! "2060..2064    ; Default_Ignorable_Code_Point # Cf   [5] WORD JOINER..INVISIBLE PLUS",
text! "2065          ; Default_Ignorable_Code_Point # Cn       <reserved-2065>",
text! "2066..206F    ; Default_Ignorable_Code_Point # Cf  [10] LEFT-TO-RIGHT ISOLATE..NOMINAL DIGIT SHAPES",
text! "3164          ; Default_Ignorable_Code_Point # Lo       HANGUL FILLER",
text! "FE00..FE0F    ; Default_Ignorable_Code_Point # Mn  [16] VARIATION SELECTOR-1..VARIATION SELECTOR-16",
text! "FEFF          ; Default_Ignorable_Code_Point # Cf       ZERO WIDTH NO-BREAK SPACE",
text! "FFA0          ; Default_Ignorable_Code_Point # Lo       HALFWIDTH HANGUL FILLER",
text! "FFF0..FFF8    ; Default_Ignorable_Code_Point # Cn   [9] <reserved-FFF0>..<reserved-FFF8>",
text! "1BCA0..1BCA3  ; Default_Ignorable_Code_Point # Cf   [4] SHORTHAND FORMAT LETTER OVERLAP..SHORTHAND FORMAT UP STEP",
text! "1D173..1D17A  ; Default_Ignorable_Code_Point # Cf   [8] MUSICAL SYMBOL BEGIN BEAM..MUSICAL SYMBOL END PHRASE",
text! "E0000         ; Default_Ignorable_Code_Point # Cn       <reserved-E0000>",
text! "E0001         ; Default_Ignorable_Code_Point # Cf       LANGUAGE TAG",
text! "E0002..E001F  ; Default_Ignorable_Code_Point # Cn  [30] <reserved-E0002>..<reserved-E001F>",
text! "E0020..E007F  ; Default_Ignorable_Code_Point # Cf  [96] TAG SPACE..CANCEL TAG",
text! "E0080..E00FF  ; Default_Ignorable_Code_Point # Cn [128] <reserved-E0080>..<reserved-E00FF>",
text! "E0100..E01EF  ; Default_Ignorable_Code_Point # Mn [240] VARIATION SELECTOR-17..VARIATION SELECTOR-256",
text! "E01F0..E0FFF  ; Default_Ignorable_Code_Point # Cn [3600] <reserved-E01F0>..<reserved-E0FFF>",
text! "",
text! "# Total code points: 4174",
text! "",
text! "# ================================================"]

/-- lines 10753-10816 -/
def derivedCore168 : List Nat := [
text! "",
text! "# Derived Property: Grapheme_Extend",
text! "#  Generated from: Me + Mn + Other_Grapheme_Extend",
text! "#  Note: depending on an application's interpretation of Co (private use),",
text! "#  they may be either in Grapheme_Base, or in Grapheme_Extend, or in neither.",
text! "",
text! "0300..036F    ; Grapheme_Extend # Mn [112] COMBINING GRAVE ACCENT..COMBINING LATIN SMALL LETTER X",
text! "0483..0487    ; Grapheme_Extend # Mn   [5] COMBINING CYRILLIC TITLO..COMBINING CYRILLIC POKRYTIE",
text! "0488..0489    ; Grapheme_Extend # Me   [2] COMBINING CYRILLIC HUNDRED THOUSANDS SIGN..COMBINING CYRILLIC MILLIONS SIGN",
text! "0591..05BD    ; Grapheme_Extend # Mn  [45] HEBREW ACCENT ETNAHTA..HEBREW POINT METEG",
text! "05BF          ; Grapheme_Extend # Mn       HEBREW POINT RAFE",
text! "05C1..05C2    ; Grapheme_Extend # Mn   [2] HEBREW POINT SHIN DOT..HEBREW POINT SIN DOT",
text! "05C4..05C5    ; Grapheme_Extend # Mn   [2] HEBREW MARK UPPER DOT..HEBREW MARK LOWER DOT",
text! "05C7          ; Grapheme_Extend # Mn       HEBREW POINT QAMATS QATAN",
text! "0610..061A    ; Grapheme_Extend # Mn  [11] ARABIC SIGN SALLALLAHOU ALAYHE WASSALLAM..ARABIC SMALL KASRA",
text! "064B..065F    ; Grapheme_Extend # Mn  [21] ARABIC FATHATAN..ARABIC WAVY HAMZA BELOW",
text! "0670          ; Grapheme_Extend # Mn       ARABIC LETTER SUPERSCRIPT ALEF",
text! "06D6..06DC    ; Grapheme_Extend # Mn   [7] ARABIC SMALL HIGH LIGATURE SAD WITH LAM WITH ALEF MAKSURA..ARABIC SMALL HIGH SEEN",
text! "06DF..06E4    ; Grapheme_Extend # Mn   [6] ARABIC SMALL HIGH ROUNDED ZERO..ARABIC SMALL HIGH MADDA",
text! "06E7..06E8    ; Grapheme_Extend # Mn   [2] ARABIC SMALL HIGH YEH..ARABIC SMALL HIGH NOON",
text! "06EA..06ED    ; Grapheme_Extend # Mn   [4] ARABIC EMPTY CENTRE LOW STOP..ARABIC SMALL LOW MEEM",
text! "0711          ; Grapheme_Extend # Mn       SYRIAC LETTER SUPERSCRIPT ALAPH",
text! "0730..074A    ; Grapheme_Extend # Mn  [27] SYRIAC PTHAHA ABOVE..SYRIAC BARREKH",
text! "07A6..07B0    ; Grapheme_Extend # Mn  [11] THAANA ABAFILI..THAANA SUKUN",
text! "07EB..07F3    ; Grapheme_Extend # Mn   [9] NKO COMBINING SHORT HIGH TONE..NKO COMBINING DOUBLE DOT ABOVE",
text! "07FD          ; Grapheme_Extend # Mn       NKO DANTAYALAN",
text! "0816..0819    ; Grapheme_Extend # Mn   [4] SAMARITAN MARK IN..SAMARITAN MARK DAGESH",
text! "081B..0823    ; Grapheme_Extend # Mn   [9] SAMARITAN MARK EPENTHETIC YUT..SAMARITAN VOWEL SIGN A",
text! "0825..0827    ; Grapheme_Extend # Mn   [3] SAMARITAN VOWEL SIGN SHORT A..SAMARITAN VOWEL SIGN U",
text! "0829..082D    ; Grapheme_Extend # Mn   [5] SAMARITAN VOWEL SIGN LONG I..SAMARITAN MARK NEQUDAA",
text! "0859..085B    ; Grapheme_Extend # Mn   [3] MANDAIC AFFRICATION MARK..MANDAIC GEMINATION MARK",
text! "0897..089F    ; Grapheme_Extend # Mn   [9] ARABIC PEPET..ARABIC HALF MADDA OVER MADDA",
text! "08CA..08E1    ; Grapheme_Extend # Mn  [24] ARABIC SMALL HIGH FARSI YEH..ARABIC SMALL HIGH SIGN SAFHA",
text! "08E3..0902    ; Grapheme_Extend # Mn  [32] ARABIC TURNED DAMMA BELOW..DEVANAGARI SIGN ANUSVARA",
text! "093A          ; Grapheme_Extend # Mn       DEVANAGARI VOWEL SIGN OE",
text! "093C          ; Grapheme_Extend # Mn       DEVANAGARI SIGN NUKTA",
text! "0941..0948    ; Grapheme_Extend # Mn   [8] DEVANAGARI VOWEL SIGN U..DEVANAGARI VOWEL SIGN AI",
text! "094D          ; Grapheme_Extend # Mn       DEVANAGARI SIGN VIRAMA",
text! "0951..0957    ; Grapheme_Extend # Mn   [7] DEVANAGARI STRESS SIGN UDATTA..DEVANAGARI VOWEL SIGN UUE",
text! "0962..0963    ; Grapheme_Extend # Mn   [2] DEVANAGARI VOWEL SIGN VOCALIC L..DEVANAGARI VOWEL SIGN VOCALIC LL",
text! "0981          ; Grapheme_Extend # Mn       BENGALI SIGN CANDRABINDU",
text! "09BC          ; Grapheme_Extend # Mn       BENGALI SIGN NUKTA",
text! "09BE          ; Grapheme_Extend # Mc       BENGALI VOWEL SIGN AA",
text! "09C1..09C4    ; Grapheme_Extend # Mn   [4] BENGALI VOWEL SIGN U..BENGALI VOWEL SIGN VOCALIC RR",
text! "09CD          ; Grapheme_Extend # Mn       BENGALI SIGN VIRAMA",
text! "09D7          ; Grapheme_Extend # Mc       BENGALI AU LENGTH MARK",
text! "09E2..09E3    ; Grapheme_Extend # Mn   [2] BENGALI VOWEL SIGN VOCALIC L..BENGALI VOWEL SIGN VOCALIC LL",
text! "09FE          ; Grapheme_Extend # Mn       BENGALI SANDHI MARK",
text! "0A01..0A02    ; Grapheme_Extend # Mn   [2] GURMUKHI SIGN ADAK BINDI..GURMUKHI SIGN BINDI",
text! "0A3C          ; Grapheme_Extend # Mn       GURMUKHI SIGN NUKTA",
text! "0A41..0A42    ; Grapheme_Extend # Mn   [2] GURMUKHI VOWEL SIGN U..GURMUKHI VOWEL SIGN UU",
text! "0A47..0A48    ; Grapheme_Extend # Mn   [2] GURMUKHI VOWEL SIGN EE..GURMUKHI VOWEL SIGN AI",
text! "0A4B..0A4D    ; Grapheme_Extend # Mn   [3] GURMUKHI VOWEL SIGN OO..GURMUKHI SIGN VIRAMA",
text! "0A51          ; Grapheme_Extend # Mn       GURMUKHI SIGN UDAAT",
text! "0A70..0A71    ; Grapheme_Extend # Mn   [2] GURMUKHI TIPPI..GURMUKHI ADDAK",
text! "0A75          ; Grapheme_Extend # Mn       GURMUKHI SIGN YAKASH",
text! "0A81..0A82    ; Grapheme_Extend # Mn   [2] GUJARATI SIGN CANDRABINDU..GUJARATI SIGN ANUSVARA",
text! "0ABC          ; Grapheme_Extend # Mn       GUJARATI SIGN NUKTA",
text! "0AC1..0AC5    ; Grapheme_Extend # Mn   [5] GUJARATI VOWEL SIGN U..GUJARATI VOWEL SIGN CANDRA E",
text! "0AC7..0AC8    ; Grapheme_Extend # Mn   [2] GUJARATI VOWEL SIGN E..GUJARATI VOWEL SIGN AI",
text! "0ACD          ; Grapheme_Extend # Mn       GUJARATI SIGN VIRAMA",
text! "0AE2..0AE3    ; Grapheme_Extend # Mn   [2] GUJARATI VOWEL SIGN VOCALIC L..GUJARATI VOWEL SIGN VOCALIC LL",
text! "0AFA..0AFF    ; Grapheme_Extend # Mn   [6] GUJARATI SIGN SUKUN..GUJARATI SIGN TWO-CIRCLE NUKTA ABOVE",
text! "0B01          ; Grapheme_Extend # Mn       ORIYA SIGN CANDRABINDU"]

/-- lines 10817-10880 -/
def derivedCore169 : List Nat := [
text! "0B3C          ; Grapheme_Extend # Mn       ORIYA SIGN NUKTA",
text! "0B3E          ; Grapheme_Extend # Mc       ORIYA VOWEL SIGN AA",
text! "0B3F          ; Grapheme_Extend # Mn       ORIYA VOWEL SIGN I",
text! "0B41..0B44    ; Grapheme_Extend # Mn   [4] ORIYA VOWEL SIGN U..ORIYA VOWEL SIGN VOCALIC RR",
text! "0B4D          ; Grapheme_Extend # Mn       ORIYA SIGN VIRAMA",
text! "0B55..0B56    ; Grapheme_Extend # Mn   [2] ORIYA SIGN OVERLINE..ORIYA AI LENGTH MARK",
text! "0B57          ; Grapheme_Extend # Mc       ORIYA AU LENGTH MARK",
text! "0B62..0B63    ; Grapheme_Extend # Mn   [2] ORIYA VOWEL SIGN VOCALIC L..ORIYA VOWEL SIGN VOCALIC LL",
text! "0B82          ; Grapheme_Extend # Mn       TAMIL SIGN ANUSVARA",
text! "0BBE          ; Grapheme_Extend # Mc       TAMIL VOWEL SIGN AA",
text! "0BC0          ; Grapheme_Extend # Mn       TAMIL VOWEL SIGN II",
text! "0BCD          ; Grapheme_Extend # Mn       TAMIL SIGN VIRAMA",
text! "0BD7          ; Grapheme_Extend # Mc       TAMIL AU LENGTH MARK",
text! "0C00          ; Grapheme_Extend # Mn       TELUGU SIGN COMBINING CANDRABINDU ABOVE",
text! "0C04          ; Grapheme_Extend # Mn       TELUGU SIGN COMBINING ANUSVARA ABOVE",
text! "0C3C          ; Grapheme_Extend # Mn       TELUGU SIGN NUKTA",
text! "0C3E..0C40    ; Grapheme_Extend # Mn   [3] TELUGU VOWEL SIGN AA..TELUGU VOWEL SIGN II",
text! "0C46..0C48    ; Grapheme_Extend # Mn   [3] TELUGU VOWEL SIGN E..TELUGU VOWEL SIGN AI",
text! "0C4A..0C4D    ; Grapheme_Extend # Mn   [4] TELUGU VOWEL SIGN O..TELUGU SIGN VIRAMA",
text! "0C55..0C56    ; Grapheme_Extend # Mn   [2] TELUGU LENGTH MARK..TELUGU AI LENGTH MARK",
text! "0C62..0C63    ; Grapheme_Extend # Mn   [2] TELUGU VOWEL SIGN VOCALIC L..TELUGU VOWEL SIGN VOCALIC LL",
text! "0C81          ; Grapheme_Extend # Mn       KANNADA SIGN CANDRABINDU",
text! "0CBC          ; Grapheme_Extend # Mn       KANNADA SIGN NUKTA",
text! "0CBF          ; Grapheme_Extend # Mn       KANNADA VOWEL SIGN I",
text! "0CC0          ; Grapheme_Extend # Mc       KANNADA VOWEL SIGN II",
text! "0CC2          ; Grapheme_Extend # Mc       KANNADA VOWEL SIGN UU",
text! "0CC6          ; Grapheme_Extend # Mn       KANNADA VOWEL SIGN E",
text! "0CC7..0CC8    ; Grapheme_Extend # Mc   [2] KANNADA VOWEL SIGN EE..KANNADA VOWEL SIGN AI",
text! "0CCA..0CCB    ; Grapheme_Extend # Mc   [2] KANNADA VOWEL SIGN O..KANNADA VOWEL SIGN OO",
text! "0CCC..0CCD    ; Grapheme_Extend # Mn   [2] KANNADA VOWEL SIGN AU..KANNADA SIGN VIRAMA",
text! "0CD5..0CD6    ; Grapheme_Extend # Mc   [2] KANNADA LENGTH MARK..KANNADA AI LENGTH MARK",
text! "0CE2..0CE3    ; Grapheme_Extend # Mn   [2] KANNADA VOWEL SIGN VOCALIC L..KANNADA VOWEL SIGN VOCALIC LL",
text! "0D00..0D01    ; Grapheme_Extend # Mn   [2] MALAYALAM SIGN COMBINING ANUSVARA ABOVE..MALAYALAM SIGN CANDRABINDU",
text! "0D3B..0D3C    ; Grapheme_Extend # Mn   [2] MALAYALAM SIGN VERTICAL BAR VIRAMA..MALAYALAM SIGN CIRCULAR VIRAMA",
text! "0D3E          ; Grapheme_Extend # Mc       MALAYALAM VOWEL SIGN AA",
text! "0D41..0D44    ; Grapheme_Extend # Mn   [4] MALAYALAM VOWEL SIGN U..MALAYALAM VOWEL SIGN VOCALIC RR",
text! "0D4D          ; Grapheme_Extend # Mn       MALAYALAM SIGN VIRAMA",
text! "0D57          ; Grapheme_Extend # Mc       MALAYALAM AU LENGTH MARK",
text! "0D62..0D63    ; Grapheme_Extend # Mn   [2] MALAYALAM VOWEL SIGN VOCALIC L..MALAYALAM VOWEL SIGN VOCALIC LL",
text! "0D81          ; Grapheme_Extend # Mn       SINHALA SIGN CANDRABINDU",
text! "0DCA          ; Grapheme_Extend # Mn       SINHALA SIGN AL-LAKUNA",
text! "0DCF          ; Grapheme_Extend # Mc       SINHALA VOWEL SIGN AELA-PILLA",
text! "0DD2..0DD4    ; Grapheme_Extend # Mn   [3] SINHALA VOWEL SIGN KETTI IS-PILLA..SINHALA VOWEL SIGN KETTI PAA-PILLA",
text! "0DD6          ; Grapheme_Extend # Mn       SINHALA VOWEL SIGN DIGA PAA-PILLA",
text! "0DDF          ; Grapheme_Extend # Mc       SINHALA VOWEL SIGN GAYANUKITTA",
text! "0E31          ; Grapheme_Extend # Mn       THAI CHARACTER MAI HAN-AKAT",
text! "0E34..0E3A    ; Grapheme_Extend # Mn   [7] THAI CHARACTER SARA I..THAI CHARACTER PHINTHU",
text! "0E47..0E4E    ; Grapheme_Extend # Mn   [8] THAI CHARACTER MAITAIKHU..THAI CHARACTER YAMAKKAN",
text! "0EB1          ; Grapheme_Extend # Mn       LAO VOWEL SIGN MAI KAN",
text! "0EB4..0EBC    ; Grapheme_Extend # Mn   [9] LAO VOWEL SIGN I..LAO SEMIVOWEL SIGN LO",
text! "0EC8..0ECE    ; Grapheme_Extend # Mn   [7] LAO TONE MAI EK..LAO YAMAKKAN",
text! "0F18..0F19    ; Grapheme_Extend # Mn   [2] TIBETAN ASTROLOGICAL SIGN -KHYUD PA..TIBETAN ASTROLOGICAL SIGN SDONG TSHUGS",
text! "0F35          ; Grapheme_Extend # Mn       TIBETAN MARK NGAS BZUNG NYI ZLA",
text! "0F37          ; Grapheme_Extend # Mn       TIBETAN MARK NGAS BZUNG SGOR RTAGS",
text! "0F39          ; Grapheme_Extend # Mn       TIBETAN MARK TSA -PHRU",
text! "0F71..0F7E    ; Grapheme_Extend # Mn  [14] TIBETAN VOWEL SIGN AA..TIBETAN SIGN RJES SU NGA RO",
text! "0F80..0F84    ; Grapheme_Extend # Mn   [5] TIBETAN VOWEL SIGN REVERSED I..TIBETAN MARK HALANTA",
text! "0F86..0F87    ; Grapheme_Extend # Mn   [2] TIBETAN SIGN LCI RTAGS..TIBETAN SIGN YANG RTAGS",
text! "0F8D..0F97    ; Grapheme_Extend # Mn  [11] TIBETAN SUBJOINED SIGN LCE TSA CAN..TIBETAN SUBJOINED LETTER JA",
text! "0F99..0FBC    ; Grapheme_Extend # Mn  [36] TIBETAN SUBJOINED LETTER NYA..TIBETAN SUBJOINED LETTER FIXED-FORM RA",
text! "0FC6          ; Grapheme_Extend # Mn       TIBETAN SYMBOL PADMA GDAN",
text! "102D..1030    ; Grapheme_Extend # Mn   [4] MYANMAR VOWEL SIGN I..MYANMAR VOWEL SIGN UU",
text! "1032..1037    ; Grapheme_Extend # Mn   [6] MYANMAR VOWEL SIGN AI..MYANMAR SIGN DOT BELOW",
text! "1039..103A    ; Grapheme_Extend # Mn   [2] MYANMAR SIGN VIRAMA..MYANMAR SIGN ASAT"]

/-- lines 10881-10944 -/
def derivedCore170 : List Nat := [
text! "103D..103E    ; Grapheme_Extend # Mn   [2] MYANMAR CONSONANT SIGN MEDIAL WA..MYANMAR CONSONANT SIGN MEDIAL HA",
text! "1058..1059    ; Grapheme_Extend # Mn   [2] MYANMAR VOWEL SIGN VOCALIC L..MYANMAR VOWEL SIGN VOCALIC LL",
text! "105E..1060    ; Grapheme_Extend # Mn   [3] MYANMAR CONSONANT SIGN MON MEDIAL NA..MYANMAR CONSONANT SIGN MON MEDIAL LA",
text! "1071..1074    ; Grapheme_Extend # Mn   [4] MYANMAR VOWEL SIGN GEBA KAREN I..MYANMAR VOWEL SIGN KAYAH EE",
text! "1082          ; Grapheme_Extend # Mn       MYANMAR CONSONANT SIGN SHAN MEDIAL WA",
text! "1085..1086    ; Grapheme_Extend # Mn   [2] MYANMAR VOWEL SIGN SHAN E ABOVE..MYANMAR VOWEL SIGN SHAN FINAL Y",
text! "108D          ; Grapheme_Extend # Mn       MYANMAR SIGN SHAN COUNCIL EMPHATIC TONE",
text! "109D          ; Grapheme_Extend # Mn       MYANMAR VOWEL SIGN AITON AI",
text! "135D..135F    ; Grapheme_Extend # Mn   [3] ETHIOPIC COMBINING GEMINATION AND VOWEL LENGTH MARK..ETHIOPIC COMBINING GEMINATION MARK",
text! "1712..1714    ; Grapheme_Extend # Mn   [3] TAGALOG VOWEL SIGN I..TAGALOG SIGN VIRAMA",
text! "1715          ; Grapheme_Extend # Mc       TAGALOG SIGN PAMUDPOD",
text! "1732..1733    ; Grapheme_Extend # Mn   [2] HANUNOO VOWEL SIGN I..HANUNOO VOWEL SIGN U",
text! "1734          ; Grapheme_Extend # Mc       HANUNOO SIGN PAMUDPOD",
text! "1752..1753    ; Grapheme_Extend # Mn   [2] BUHID VOWEL SIGN I..BUHID VOWEL SIGN U",
text! "1772..1773    ; Grapheme_Extend # Mn   [2] TAGBANWA VOWEL SIGN I..TAGBANWA VOWEL SIGN U",
text! "17B4..17B5    ; Grapheme_Extend # Mn   [2] KHMER VOWEL INHERENT AQ..KHMER VOWEL INHERENT AA",
text! "17B7..17BD    ; Grapheme_Extend # Mn   [7] KHMER VOWEL SIGN I..KHMER VOWEL SIGN UA",
text! "17C6          ; Grapheme_Extend # Mn       KHMER SIGN NIKAHIT",
text! "17C9..17D3    ; Grapheme_Extend # Mn  [11] KHMER SIGN MUUSIKATOAN..KHMER SIGN BATHAMASAT",
text! "17DD          ; Grapheme_Extend # Mn       KHMER SIGN ATTHACAN",
text! "180B..180D    ; Grapheme_Extend # Mn   [3] MONGOLIAN FREE VARIATION SELECTOR ONE..MONGOLIAN FREE VARIATION SELECTOR THREE",
text! "180F          ; Grapheme_Extend # Mn       MONGOLIAN FREE VARIATION SELECTOR FOUR",
text! "1885..1886    ; Grapheme_Extend # Mn   [2] MONGOLIAN LETTER ALI GALI BALUDA..MONGOLIAN LETTER ALI GALI THREE BALUDA",
text! "18A9          ; Grapheme_Extend # Mn       MONGOLIAN LETTER ALI GALI DAGALGA",
text! "1920..1922    ; Grapheme_Extend # Mn   [3] LIMBU VOWEL SIGN A..LIMBU VOWEL SIGN U",
text! "1927..1928    ; Grapheme_Extend # Mn   [2] LIMBU VOWEL SIGN E..LIMBU VOWEL SIGN O",
text! "1932          ; Grapheme_Extend # Mn       LIMBU SMALL LETTER ANUSVARA",
text! "1939..193B    ; Grapheme_Extend # Mn   [3] LIMBU SIGN MUKPHRENG..LIMBU SIGN SA-I",
text! "1A17..1A18    ; Grapheme_Extend # Mn   [2] BUGINESE VOWEL SIGN I..BUGINESE VOWEL SIGN U",
text! "1A1B          ; Grapheme_Extend # Mn       BUGINESE VOWEL SIGN AE",
text! "1A56          ; Grapheme_Extend # Mn       TAI THAM CONSONANT SIGN MEDIAL LA",
text! "1A58..1A5E    ; Grapheme_Extend # Mn   [7] TAI THAM SIGN MAI KANG LAI..TAI THAM CONSONANT SIGN SA",
text! "1A60          ; Grapheme_Extend # Mn       TAI THAM SIGN SAKOT",
text! "1A62          ; Grapheme_Extend # Mn       TAI THAM VOWEL SIGN MAI SAT",
text! "1A65..1A6C    ; Grapheme_Extend # Mn   [8] TAI THAM VOWEL SIGN I..TAI THAM VOWEL SIGN OA BELOW",
text! "1A73..1A7C    ; Grapheme_Extend # Mn  [10] TAI THAM VOWEL SIGN OA ABOVE..TAI THAM SIGN KHUEN-LUE KARAN",
text! "1A7F          ; Grapheme_Extend # Mn       TAI THAM COMBINING CRYPTOGRAMMIC DOT",
text! "1AB0..1ABD    ; Grapheme_Extend # Mn  [14] COMBINING DOUBLED CIRCUMFLEX ACCENT..COMBINING PARENTHESES BELOW",
text! "1ABE          ; Grapheme_Extend # Me       COMBINING PARENTHESES OVERLAY",
text! "1ABF..1ADD    ; Grapheme_Extend # Mn  [31] COMBINING LATIN SMALL LETTER W BELOW..COMBINING DOT-AND-RING BELOW",
text! "1AE0..1AEB    ; Grapheme_Extend # Mn  [12] COMBINING LEFT TACK ABOVE..COMBINING DOUBLE RIGHTWARDS ARROW ABOVE",
text! "1B00..1B03    ; Grapheme_Extend # Mn   [4] BALINESE SIGN ULU RICEM..BALINESE SIGN SURANG",
text! "1B34          ; Grapheme_Extend # Mn       BALINESE SIGN REREKAN",
text! "1B35          ; Grapheme_Extend # Mc       BALINESE VOWEL SIGN TEDUNG",
text! "1B36..1B3A    ; Grapheme_Extend # Mn   [5] BALINESE VOWEL SIGN ULU..BALINESE VOWEL SIGN RA REPA",
text! "1B3B          ; Grapheme_Extend # Mc       BALINESE VOWEL SIGN RA REPA TEDUNG",
text! "1B3C          ; Grapheme_Extend # Mn       BALINESE VOWEL SIGN LA LENGA",
text! "1B3D          ; Grapheme_Extend # Mc       BALINESE VOWEL SIGN LA LENGA TEDUNG",
text! "1B42          ; Grapheme_Extend # Mn       BALINESE VOWEL SIGN PEPET",
text! "1B43..1B44    ; Grapheme_Extend # Mc   [2] BALINESE VOWEL SIGN PEPET TEDUNG..BALINESE ADEG ADEG",
text! "1B6B..1B73    ; Grapheme_Extend # Mn   [9] BALINESE MUSICAL SYMBOL COMBINING TEGEH..BALINESE MUSICAL SYMBOL COMBINING GONG",
text! "1B80..1B81    ; Grapheme_Extend # Mn   [2] SUNDANESE SIGN PANYECEK..SUNDANESE SIGN PANGLAYAR",
text! "1BA2..1BA5    ; Grapheme_Extend # Mn   [4] SUNDANESE CONSONANT SIGN PANYAKRA..SUNDANESE VOWEL SIGN PANYUKU",
text! "1BA8..1BA9    ; Grapheme_Extend # Mn   [2] SUNDANESE VOWEL SIGN PAMEPET..SUNDANESE VOWEL SIGN PANEULEUNG",
text! "1BAA          ; Grapheme_Extend # Mc       SUNDANESE SIGN PAMAAEH",
text! "1BAB..1BAD    ; Grapheme_Extend # Mn   [3] SUNDANESE SIGN VIRAMA..SUNDANESE CONSONANT SIGN PASANGAN WA",
text! "1BE6          ; Grapheme_Extend # Mn       BATAK SIGN TOMPI",
text! "1BE8..1BE9    ; Grapheme_Extend # Mn   [2] BATAK VOWEL SIGN PAKPAK E..BATAK VOWEL SIGN EE",
text! "1BED          ; Grapheme_Extend # Mn       BATAK VOWEL SIGN KARO O",
text! "1BEF..1BF1    ; Grapheme_Extend # Mn   [3] BATAK VOWEL SIGN U FOR SIMALUNGUN SA..BATAK CONSONANT SIGN H",
text! "1BF2..1BF3    ; Grapheme_Extend # Mc   [2] BATAK PANGOLAT..BATAK PANONGONAN",
text! "1C2C..1C33    ; Grapheme_Extend # Mn   [8] LEPCHA VOWEL SIGN E..LEPCHA CONSONANT SIGN T",
text! "1C36..1C37    ; Grapheme_Extend # Mn   [2] LEPCHA SIGN RAN..LEPCHA SIGN NUKTA",
text! "1CD0..1CD2    ; Grapheme_Extend # Mn   [3] VEDIC TONE KARSHANA..VEDIC TONE PRENKHA"]

/-- lines 10945-11008 -/
def derivedCore171 : List Nat := [
text! "1CD4..1CE0    ; Grapheme_Extend # Mn  [13] VEDIC SIGN YAJURVEDIC MIDLINE SVARITA..VEDIC TONE RIGVEDIC KASHMIRI INDEPENDENT SVARITA",
text! "1CE2..1CE8    ; Grapheme_Extend # Mn   [7] VEDIC SIGN VISARGA SVARITA..VEDIC SIGN VISARGA ANUDATTA WITH TAIL",
text! "1CED          ; Grapheme_Extend # Mn       VEDIC SIGN TIRYAK",
text! "1CF4          ; Grapheme_Extend # Mn       VEDIC TONE CANDRA ABOVE",
text! "1CF8..1CF9    ; Grapheme_Extend # Mn   [2] VEDIC TONE RING ABOVE..VEDIC TONE DOUBLE RING ABOVE",
text! "1DC0..1DFF    ; Grapheme_Extend # Mn  [64] COMBINING DOTTED GRAVE ACCENT..COMBINING RIGHT ARROWHEAD AND DOWN ARROWHEAD BELOW",
text! "200C          ; Grapheme_Extend # Cf       ZERO WIDTH NON-JOINER",
text! "20D0..20DC    ; Grapheme_Extend # Mn  [13] COMBINING LEFT HARPOON ABOVE..COMBINING FOUR DOTS ABOVE",
text! "20DD..20E0    ; Grapheme_Extend # Me   [4] COMBINING ENCLOSING CIRCLE..COMBINING ENCLOSING CIRCLE BACKSLASH",
text! "20E1          ; Grapheme_Extend # Mn       COMBINING LEFT RIGHT ARROW ABOVE",
text! "20E2..20E4    ; Grapheme_Extend # Me   [3] COMBINING ENCLOSING SCREEN..COMBINING ENCLOSING UPWARD POINTING TRIANGLE",
text! "20E5..20F0    ; Grapheme_Extend # Mn  [12] COMBINING REVERSE SOLIDUS OVERLAY..COMBINING ASTERISK ABOVE",
text! "2CEF..2CF1    ; Grapheme_Extend # Mn   [3] COPTIC COMBINING NI ABOVE..COPTIC COMBINING SPIRITUS LENIS",
text! "2D7F          ; Grapheme_Extend # Mn       TIFINAGH CONSONANT JOINER",
text! "2DE0..2DFF    ; Grapheme_Extend # Mn  [32] COMBINING CYRILLIC LETTER BE..COMBINING CYRILLIC LETTER IOTIFIED BIG YUS",
text! "302A..302D    ; Grapheme_Extend # Mn   [4] IDEOGRAPHIC LEVEL TONE MARK..IDEOGRAPHIC ENTERING TONE MARK",
text! "302E..302F    ; Grapheme_Extend # Mc   [2] HANGUL SINGLE DOT TONE MARK..HANGUL DOUBLE DOT TONE MARK",
text! "3099..309A    ; Grapheme_Extend # Mn   [2] COMBINING KATAKANA-HIRAGANA VOICED SOUND MARK..COMBINING KATAKANA-HIRAGANA SEMI-VOICED SOUND MARK",
text! "A66F          ; Grapheme_Extend # Mn       COMBINING CYRILLIC VZMET",
text! "A670..A672    ; Grapheme_Extend # Me   [3] COMBINING CYRILLIC TEN MILLIONS SIGN..COMBINING CYRILLIC THOUSAND MILLIONS SIGN",
text! "A674..A67D    ; Grapheme_Extend # Mn  [10] COMBINING CYRILLIC LETTER UKRAINIAN IE..COMBINING CYRILLIC PAYEROK",
text! "A69E..A69F    ; Grapheme_Extend # Mn   [2] COMBINING CYRILLIC LETTER EF..COMBINING CYRILLIC LETTER IOTIFIED E",
text! "A6F0..A6F1    ; Grapheme_Extend # Mn   [2] BAMUM COMBINING MARK KOQNDON..BAMUM COMBINING MARK TUKWENTIS",
text! "A802          ; Grapheme_Extend # Mn       SYLOTI NAGRI SIGN DVISVARA",
text! "A806          ; Grapheme_Extend # Mn       SYLOTI NAGRI SIGN HASANTA",
text! "A80B          ; Grapheme_Extend # Mn       SYLOTI NAGRI SIGN ANUSVARA",
text! "A825..A826    ; Grapheme_Extend # Mn   [2] SYLOTI NAGRI VOWEL SIGN U..SYLOTI NAGRI VOWEL SIGN E",
text! "A82C          ; Grapheme_Extend # Mn       SYLOTI NAGRI SIGN ALTERNATE HASANTA",
text! "A8C4..A8C5    ; Grapheme_Extend # Mn   [2] SAURASHTRA SIGN VIRAMA..SAURASHTRA SIGN CANDRABINDU",
text! "A8E0..A8F1    ; Grapheme_Extend # Mn  [18] COMBINING DEVANAGARI DIGIT ZERO..COMBINING DEVANAGARI SIGN AVAGRAHA",
text! "A8FF          ; Grapheme_Extend # Mn       DEVANAGARI VOWEL SIGN AY",
text! "A926..A92D    ; Grapheme_Extend # Mn   [8] KAYAH LI VOWEL UE..KAYAH LI TONE CALYA PLOPHU",
text! "A947..A951    ; Grapheme_Extend # Mn  [11] REJANG VOWEL SIGN I..REJANG CONSONANT SIGN R",
text! "A953          ; Grapheme_Extend # Mc       REJANG VIRAMA",
text! "A980..A982    ; Grapheme_Extend # Mn   [3] JAVANESE SIGN PANYANGGA..JAVANESE SIGN LAYAR",
text! "A9B3          ; Grapheme_Extend # Mn       JAVANESE SIGN CECAK TELU",
text! "A9B6..A9B9    ; Grapheme_Extend # Mn   [4] JAVANESE VOWEL SIGN WULU..JAVANESE VOWEL SIGN SUKU MENDUT",
text! "A9BC..A9BD    ; Grapheme_Extend # Mn   [2] JAVANESE VOWEL SIGN PEPET..JAVANESE CONSONANT SIGN KERET",
text! "A9C0          ; Grapheme_Extend # Mc       JAVANESE PANGKON",
text! "A9E5          ; Grapheme_Extend # Mn       MYANMAR SIGN SHAN SAW",
text! "AA29..AA2E    ; Grapheme_Extend # Mn   [6] CHAM VOWEL SIGN AA..CHAM VOWEL SIGN OE",
text! "AA31..AA32    ; Grapheme_Extend # Mn   [2] CHAM VOWEL SIGN AU..CHAM VOWEL SIGN UE",
text! "AA35..AA36    ; Grapheme_Extend # Mn   [2] CHAM CONSONANT SIGN LA..CHAM CONSONANT SIGN WA",
text! "AA43          ; Grapheme_Extend # Mn       CHAM CONSONANT SIGN FINAL NG",
text! "AA4C          ; Grapheme_Extend # Mn       CHAM CONSONANT SIGN FINAL M",
text! "AA7C          ; Grapheme_Extend # Mn       MYANMAR SIGN TAI LAING TONE-2",
text! "AAB0          ; Grapheme_Extend # Mn       TAI VIET MAI KANG",
text! "AAB2..AAB4    ; Grapheme_Extend # Mn   [3] TAI VIET VOWEL I..TAI VIET VOWEL U",
text! "AAB7..AAB8    ; Grapheme_Extend # Mn   [2] TAI VIET MAI KHIT..TAI VIET VOWEL IA",
text! "AABE..AABF    ; Grapheme_Extend # Mn   [2] TAI VIET VOWEL AM..TAI VIET TONE MAI EK",
text! "AAC1          ; Grapheme_Extend # Mn       TAI VIET TONE MAI THO",
text! "AAEC..AAED    ; Grapheme_Extend # Mn   [2] MEETEI MAYEK VOWEL SIGN UU..MEETEI MAYEK VOWEL SIGN AAI",
text! "AAF6          ; Grapheme_Extend # Mn       MEETEI MAYEK VIRAMA",
text! "ABE5          ; Grapheme_Extend # Mn       MEETEI MAYEK VOWEL SIGN ANAP",
text! "ABE8          ; Grapheme_Extend # Mn       MEETEI MAYEK VOWEL SIGN UNAP",
text! "ABED          ; Grapheme_Extend # Mn       MEETEI MAYEK APUN IYEK",
text! "FB1E          ; Grapheme_Extend # Mn       HEBREW POINT JUDEO-SPANISH VARIKA",
text! "FE00..FE0F    ; Grapheme_Extend # Mn  [16] VARIATION SELECTOR-1..VARIATION SELECTOR-16",
text! "FE20..FE2F    ; Grapheme_Extend # Mn  [16] COMBINING LIGATURE LEFT HALF..COMBINING CYRILLIC TITLO RIGHT HALF",
text! "FF9E..FF9F    ; Grapheme_Extend # Lm   [2] HALFWIDTH KATAKANA VOICED SOUND MARK..HALFWIDTH KATAKANA SEMI-VOICED SOUND MARK",
text! "101FD         ; Grapheme_Extend # Mn       PHAISTOS DISC SIGN COMBINING OBLIQUE STROKE",
text! "102E0         ; Grapheme_Extend # Mn       COPTIC EPACT THOUSANDS MARK",
text! "10376..1037A  ; Grapheme_Extend # Mn   [5] COMBINING OLD PERMIC LETTER AN..COMBINING OLD PERMIC LETTER SII",
text! "10A01..10A03  ; Grapheme_Extend # Mn   [3] KHAROSHTHI VOWEL SIGN I..KHAROSHTHI VOWEL SIGN VOCALIC R"]

/-- lines 11009-11072 -/
def derivedCore172 : List Nat := [
text! "10A05..10A06  ; Grapheme_Extend # Mn   [2] KHAROSHTHI VOWEL SIGN E..KHAROSHTHI VOWEL SIGN O",
text! "10A0C..10A0F  ; Grapheme_Extend # Mn   [4] KHAROSHTHI VOWEL LENGTH MARK..KHAROSHTHI SIGN VISARGA",
text! "10A38..10A3A  ; Grapheme_Extend # Mn   [3] KHAROSHTHI SIGN BAR ABOVE..KHAROSHTHI SIGN DOT BELOW",
text! "10A3F         ; Grapheme_Extend # Mn       KHAROSHTHI VIRAMA",
text! "10AE5..10AE6  ; Grapheme_Extend # Mn   [2] MANICHAEAN ABBREVIATION MARK ABOVE..MANICHAEAN ABBREVIATION MARK BELOW",
text! "10D24..10D27  ; Grapheme_Extend # Mn   [4] HANIFI ROHINGYA SIGN HARBAHAY..HANIFI ROHINGYA SIGN TASSI",
text! "10D69..10D6D  ; Grapheme_Extend # Mn   [5] GARAY VOWEL SIGN E..GARAY CONSONANT NASALIZATION MARK",
text! "10EAB..10EAC  ; Grapheme_Extend # Mn   [2] YEZIDI COMBINING HAMZA MARK..YEZIDI COMBINING MADDA MARK",
text! "10EFA..10EFF  ; Grapheme_Extend # Mn   [6] ARABIC DOUBLE VERTICAL BAR BELOW..ARABIC SMALL LOW WORD MADDA",
text! "10F46..10F50  ; Grapheme_Extend # Mn  [11] SOGDIAN COMBINING DOT BELOW..SOGDIAN COMBINING STROKE BELOW",
text! "10F82..10F85  ; Grapheme_Extend # Mn   [4] OLD UYGHUR COMBINING DOT ABOVE..OLD UYGHUR COMBINING TWO DOTS BELOW",
text! "11001         ; Grapheme_Extend # Mn       BRAHMI SIGN ANUSVARA",
text! "11038..11046  ; Grapheme_Extend # Mn  [15] BRAHMI VOWEL SIGN AA..BRAHMI VIRAMA",
text! "11070         ; Grapheme_Extend # Mn       BRAHMI SIGN OLD TAMIL VIRAMA",
text! "11073..11074  ; Grapheme_Extend # Mn   [2] BRAHMI VOWEL SIGN OLD TAMIL SHORT E..BRAHMI VOWEL SIGN OLD TAMIL SHORT O",
text! "1107F..11081  ; Grapheme_Extend # Mn   [3] BRAHMI NUMBER JOINER..KAITHI SIGN ANUSVARA",
text! "110B3..110B6  ; Grapheme_Extend # Mn   [4] KAITHI VOWEL SIGN U..KAITHI VOWEL SIGN AI",
text! "110B9..110BA  ; Grapheme_Extend # Mn   [2] KAITHI SIGN VIRAMA..KAITHI SIGN NUKTA",
text! "110C2         ; Grapheme_Extend # Mn       KAITHI VOWEL SIGN VOCALIC R",
text! "11100..11102  ; Grapheme_Extend # Mn   [3] CHAKMA SIGN CANDRABINDU..CHAKMA SIGN VISARGA",
text! "11127..1112B  ; Grapheme_Extend # Mn   [5] CHAKMA VOWEL SIGN A..CHAKMA VOWEL SIGN UU",
text! "1112D..11134  ; Grapheme_Extend # Mn   [8] CHAKMA VOWEL SIGN AI..CHAKMA MAAYYAA",
text! "11173         ; Grapheme_Extend # Mn       MAHAJANI SIGN NUKTA",
text! "11180..11181  ; Grapheme_Extend # Mn   [2] SHARADA SIGN CANDRABINDU..SHARADA SIGN ANUSVARA",
text! "111B6..111BE  ; Grapheme_Extend # Mn   [9] SHARADA VOWEL SIGN U..SHARADA VOWEL SIGN O",
text! "111C0         ; Grapheme_Extend # Mc       SHARADA SIGN VIRAMA",
text! "111C9..111CC  ; Grapheme_Extend # Mn   [4] SHARADA SANDHI MARK..SHARADA EXTRA SHORT VOWEL MARK",
text! "111CF         ; Grapheme_Extend # Mn       SHARADA SIGN INVERTED CANDRABINDU",
text! "1122F..11231  ; Grapheme_Extend # Mn   [3] KHOJKI VOWEL SIGN U..KHOJKI VOWEL SIGN AI",
text! "11234         ; Grapheme_Extend # Mn       KHOJKI SIGN ANUSVARA",
text! "11235         ; Grapheme_Extend # Mc       KHOJKI SIGN VIRAMA",
text! "11236..11237  ; Grapheme_Extend # Mn   [2] KHOJKI SIGN NUKTA..KHOJKI SIGN SHADDA",
text! "1123E         ; Grapheme_Extend # Mn       KHOJKI SIGN SUKUN",
text! "11241         ; Grapheme_Extend # Mn       KHOJKI VOWEL SIGN VOCALIC R",
text! "112DF         ; Grapheme_Extend # Mn       KHUDAWADI SIGN ANUSVARA",
text! "112E3..112EA  ; Grapheme_Extend # Mn   [8] KHUDAWADI VOWEL SIGN U..KHUDAWADI SIGN VIRAMA",
text! "11300..11301  ; Grapheme_Extend # Mn   [2] GRANTHA SIGN COMBINING ANUSVARA ABOVE..GRANTHA SIGN CANDRABINDU",
text! "1133B..1133C  ; Grapheme_Extend # Mn   [2] COMBINING BINDU BELOW..GRANTHA SIGN NUKTA",
text! "1133E         ; Grapheme_Extend # Mc       GRANTHA VOWEL SIGN AA",
text! "11340         ; Grapheme_Extend # Mn       GRANTHA VOWEL SIGN II",
text! "1134D         ; Grapheme_Extend # Mc       GRANTHA SIGN VIRAMA",
text! "11357         ; Grapheme_Extend # Mc       GRANTHA AU LENGTH MARK",
text! "11366..1136C  ; Grapheme_Extend # Mn   [7] COMBINING GRANTHA DIGIT ZERO..COMBINING GRANTHA DIGIT SIX",
text! "11370..11374  ; Grapheme_Extend # Mn   [5] COMBINING GRANTHA LETTER A..COMBINING GRANTHA LETTER PA",
text! "113B8         ; Grapheme_Extend # Mc       TULU-TIGALARI VOWEL SIGN AA",
text! "113BB..113C0  ; Grapheme_Extend # Mn   [6] TULU-TIGALARI VOWEL SIGN U..TULU-TIGALARI VOWEL SIGN VOCALIC LL",
text! "113C2         ; Grapheme_Extend # Mc       TULU-TIGALARI VOWEL SIGN EE",
text! "113C5         ; Grapheme_Extend # Mc       TULU-TIGALARI VOWEL SIGN AI",
text! "113C7..113C9  ; Grapheme_Extend # Mc   [3] TULU-TIGALARI VOWEL SIGN OO..TULU-TIGALARI AU LENGTH MARK",
text! "113CE         ; Grapheme_Extend # Mn       TULU-TIGALARI SIGN VIRAMA",
text! "113CF         ; Grapheme_Extend # Mc       TULU-TIGALARI SIGN LOOPED VIRAMA",
text! "113D0         ; Grapheme_Extend # Mn       TULU-TIGALARI CONJOINER",
text! "113D2         ; Grapheme_Extend # Mn       TULU-TIGALARI GEMINATION MARK",
text! "113E1..113E2  ; Grapheme_Extend # Mn   [2] TULU-TIGALARI VEDIC TONE SVARITA..TULU-TIGALARI VEDIC TONE ANUDATTA",
text! "11438..1143F  ; Grapheme_Extend # Mn   [8] NEWA VOWEL SIGN U..NEWA VOWEL SIGN AI",
text! "11442..11444  ; Grapheme_Extend # Mn   [3] NEWA SIGN VIRAMA..NEWA SIGN ANUSVARA",
text! "11446         ; Grapheme_Extend # Mn       NEWA SIGN NUKTA",
text! "1145E         ; Grapheme_Extend # Mn       NEWA SANDHI MARK",
text! "114B0         ; Grapheme_Extend # Mc       TIRHUTA VOWEL SIGN AA",
text! "114B3..114B8  ; Grapheme_Extend # Mn   [6] TIRHUTA VOWEL SIGN U..TIRHUTA VOWEL SIGN VOCALIC LL",
text! "114BA         ; Grapheme_Extend # Mn       TIRHUTA VOWEL SIGN SHORT E",
text! "114BD         ; Grapheme_Extend # Mc       TIRHUTA VOWEL SIGN SHORT O",
text! "114BF..114C0  ; Grapheme_Extend # Mn   [2] TIRHUTA SIGN CANDRABINDU..TIRHUTA SIGN ANUSVARA",
text! "114C2..114C3  ; Grapheme_Extend # Mn   [2] TIRHUTA SIGN VIRAMA..TIRHUTA SIGN NUKTA"]

/-- lines 11073-11136 -/
def derivedCore173 : List Nat := [
text! "115AF         ; Grapheme_Extend # Mc       SIDDHAM VOWEL SIGN AA",
text! "115B2..115B5  ; Grapheme_Extend # Mn   [4] SIDDHAM VOWEL SIGN U..SIDDHAM VOWEL SIGN VOCALIC RR",
text! "115BC..115BD  ; Grapheme_Extend # Mn   [2] SIDDHAM SIGN CANDRABINDU..SIDDHAM SIGN ANUSVARA",
text! "115BF..115C0  ; Grapheme_Extend # Mn   [2] SIDDHAM SIGN VIRAMA..SIDDHAM SIGN NUKTA",
text! "115DC..115DD  ; Grapheme_Extend # Mn   [2] SIDDHAM VOWEL SIGN ALTERNATE U..SIDDHAM VOWEL SIGN ALTERNATE UU",
text! "11633..1163A  ; Grapheme_Extend # Mn   [8] MODI VOWEL SIGN U..MODI VOWEL SIGN AI",
text! "1163D         ; Grapheme_Extend # Mn       MODI SIGN ANUSVARA",
text! "1163F..11640  ; Grapheme_Extend # Mn   [2] MODI SIGN VIRAMA..MODI SIGN ARDHACANDRA",
text! "116AB         ; Grapheme_Extend # Mn       TAKRI SIGN ANUSVARA",
text! "116AD         ; Grapheme_Extend # Mn       TAKRI VOWEL SIGN AA",
text! "116B0..116B5  ; Grapheme_Extend # Mn   [6] TAKRI VOWEL SIGN U..TAKRI VOWEL SIGN AU",
text! "116B6         ; Grapheme_Extend # Mc       TAKRI SIGN VIRAMA",
text! "116B7         ; Grapheme_Extend # Mn       TAKRI SIGN NUKTA",
text! "1171D         ; Grapheme_Extend # Mn       AHOM CONSONANT SIGN MEDIAL LA",
text! "1171F         ; Grapheme_Extend # Mn       AHOM CONSONANT SIGN MEDIAL LIGATING RA",
text! "11722..11725  ; Grapheme_Extend # Mn   [4] AHOM VOWEL SIGN I..AHOM VOWEL SIGN UU",
text! "11727..1172B  ; Grapheme_Extend # Mn   [5] AHOM VOWEL SIGN AW..AHOM SIGN KILLER",
text! "1182F..11837  ; Grapheme_Extend # Mn   [9] DOGRA VOWEL SIGN U..DOGRA SIGN ANUSVARA",
text! "11839..1183A  ; Grapheme_Extend # Mn   [2] DOGRA SIGN VIRAMA..DOGRA SIGN NUKTA",
text! "11930         ; Grapheme_Extend # Mc       DIVES AKURU VOWEL SIGN AA",
text! "1193B..1193C  ; Grapheme_Extend # Mn   [2] DIVES AKURU SIGN ANUSVARA..DIVES AKURU SIGN CANDRABINDU",
text! "1193D         ; Grapheme_Extend # Mc       DIVES AKURU SIGN HALANTA",
text! "1193E         ; Grapheme_Extend # Mn       DIVES AKURU VIRAMA",
text! "11943         ; Grapheme_Extend # Mn       DIVES AKURU SIGN NUKTA",
text! "119D4..119D7  ; Grapheme_Extend # Mn   [4] NANDINAGARI VOWEL SIGN U..NANDINAGARI VOWEL SIGN VOCALIC RR",
text! "119DA..119DB  ; Grapheme_Extend # Mn   [2] NANDINAGARI VOWEL SIGN E..NANDINAGARI VOWEL SIGN AI",
text! "119E0         ; Grapheme_Extend # Mn       NANDINAGARI SIGN VIRAMA",
text! "11A01..11A0A  ; Grapheme_Extend # Mn  [10] ZANABAZAR SQUARE VOWEL SIGN I..ZANABAZAR SQUARE VOWEL LENGTH MARK",
text! "11A33..11A38  ; Grapheme_Extend # Mn   [6] ZANABAZAR SQUARE FINAL CONSONANT MARK..ZANABAZAR SQUARE SIGN ANUSVARA",
text! "11A3B..11A3E  ; Grapheme_Extend # Mn   [4] ZANABAZAR SQUARE CLUSTER-FINAL LETTER YA..ZANABAZAR SQUARE CLUSTER-FINAL LETTER VA",
text! "11A47         ; Grapheme_Extend # Mn       ZANABAZAR SQUARE SUBJOINER",
text! "11A51..11A56  ; Grapheme_Extend # Mn   [6] SOYOMBO VOWEL SIGN I..SOYOMBO VOWEL SIGN OE",
text! "11A59..11A5B  ; Grapheme_Extend # Mn   [3] SOYOMBO VOWEL SIGN VOCALIC R..SOYOMBO VOWEL LENGTH MARK",
text! "11A8A..11A96  ; Grapheme_Extend # Mn  [13] SOYOMBO FINAL CONSONANT SIGN G..SOYOMBO SIGN ANUSVARA",
text! "11A98..11A99  ; Grapheme_Extend # Mn   [2] SOYOMBO GEMINATION MARK..SOYOMBO SUBJOINER",
text! "11B60         ; Grapheme_Extend # Mn       SHARADA VOWEL SIGN OE",
text! "11B62..11B64  ; Grapheme_Extend # Mn   [3] SHARADA VOWEL SIGN UE..SHARADA VOWEL SIGN SHORT E",
text! "11B66         ; Grapheme_Extend # Mn       SHARADA VOWEL SIGN CANDRA E",
text! "11C30..11C36  ; Grapheme_Extend # Mn   [7] BHAIKSUKI VOWEL SIGN I..BHAIKSUKI VOWEL SIGN VOCALIC L",
text! "11C38..11C3D  ; Grapheme_Extend # Mn   [6] BHAIKSUKI VOWEL SIGN E..BHAIKSUKI SIGN ANUSVARA",
text! "11C3F         ; Grapheme_Extend # Mn       BHAIKSUKI SIGN VIRAMA",
text! "11C92..11CA7  ; Grapheme_Extend # Mn  [22] MARCHEN SUBJOINED LETTER KA..MARCHEN SUBJOINED LETTER ZA",
text! "11CAA..11CB0  ; Grapheme_Extend # Mn   [7] MARCHEN SUBJOINED LETTER RA..MARCHEN VOWEL SIGN AA",
text! "11CB2..11CB3  ; Grapheme_Extend # Mn   [2] MARCHEN VOWEL SIGN U..MARCHEN VOWEL SIGN E",
text! "11CB5..11CB6  ; Grapheme_Extend # Mn   [2] MARCHEN SIGN ANUSVARA..MARCHEN SIGN CANDRABINDU",
text! "11D31..11D36  ; Grapheme_Extend # Mn   [6] MASARAM GONDI VOWEL SIGN AA..MASARAM GONDI VOWEL SIGN VOCALIC R",
text! "11D3A         ; Grapheme_Extend # Mn       MASARAM GONDI VOWEL SIGN E",
text! "11D3C..11D3D  ; Grapheme_Extend # Mn   [2] MASARAM GONDI VOWEL SIGN AI..MASARAM GONDI VOWEL SIGN O",
text! "11D3F..11D45  ; Grapheme_Extend # Mn   [7] MASARAM GONDI VOWEL SIGN AU..MASARAM GONDI VIRAMA",
text! "11D47         ; Grapheme_Extend # Mn       MASARAM GONDI RA-KARA",
text! "11D90..11D91  ; Grapheme_Extend # Mn   [2] GUNJALA GONDI VOWEL SIGN EE..GUNJALA GONDI VOWEL SIGN AI",
text! "11D95         ; Grapheme_Extend # Mn       GUNJALA GONDI SIGN ANUSVARA",
text! "11D97         ; Grapheme_Extend # Mn       GUNJALA GONDI VIRAMA",
text! "11EF3..11EF4  ; Grapheme_Extend # Mn   [2] MAKASAR VOWEL SIGN I..MAKASAR VOWEL SIGN U",
text! "11F00..11F01  ; Grapheme_Extend # Mn   [2] KAWI SIGN CANDRABINDU..KAWI SIGN ANUSVARA",
text! "11F36..11F3A  ; Grapheme_Extend # Mn   [5] KAWI VOWEL SIGN I..KAWI VOWEL SIGN VOCALIC R",
text! "11F40         ; Grapheme_Extend # Mn       KAWI VOWEL SIGN EU",
text! "11F41         ; Grapheme_Extend # Mc       KAWI SIGN KILLER",
text! "11F42         ; Grapheme_Extend # Mn       KAWI CONJOINER",
text! "11F5A         ; Grapheme_Extend # Mn       KAWI SIGN NUKTA",
text! "13440         ; Grapheme_Extend # Mn       EGYPTIAN HIEROGLYPH MIRROR HORIZONTALLY",
text! "13447..13455  ; Grapheme_Extend # Mn  [15] EGYPTIAN HIEROGLYPH MODIFIER DAMAGED AT TOP START..EGYPTIAN HIEROGLYPH MODIFIER DAMAGED",
text! "1611E..16129  ; Grapheme_Extend # Mn  [12] GURUNG KHEMA VOWEL SIGN AA..GURUNG KHEMA VOWEL LENGTH MARK",
text! "1612D..1612F  ; Grapheme_Extend # Mn   [3] GURUNG KHEMA SIGN ANUSVARA..GURUNG KHEMA SIGN THOLHOMA"]

/-- lines 11137-11200 -/
def derivedCore174 : List Nat := [
text! "16AF0..16AF4  ; Grapheme_Extend # Mn   [5] BASSA VAH COMBINING HIGH TONE..BASSA VAH COMBINING HIGH-LOW TONE",
text! "16B30..16B36  ; Grapheme_Extend # Mn   [7] PAHAWH HMONG MARK CIM TUB..PAHAWH HMONG MARK CIM TAUM",
text! "16F4F         ; Grapheme_Extend # Mn       MIAO SIGN CONSONANT MODIFIER BAR",
text! "16F8F..16F92  ; Grapheme_Extend # Mn   [4] MIAO TONE RIGHT..MIAO TONE BELOW",
text! "16FE4         ; Grapheme_Extend # Mn       KHITAN SMALL SCRIPT FILLER",
text! "16FF0..16FF1  ; Grapheme_Extend # Mc   [2] VIETNAMESE ALTERNATE READING MARK CA..VIETNAMESE ALTERNATE READING MARK NHAY",
text! "1BC9D..1BC9E  ; Grapheme_Extend # Mn   [2] DUPLOYAN THICK LETTER SELECTOR..DUPLOYAN DOUBLE MARK",
text! "1CF00..1CF2D  ; Grapheme_Extend # Mn  [46] ZNAMENNY COMBINING MARK GORAZDO NIZKO S KRYZHEM ON LEFT..ZNAMENNY COMBINING MARK KRYZH ON LEFT",
text! "1CF30..1CF46  ; Grapheme_Extend # Mn  [23] ZNAMENNY COMBINING TONAL RANGE MARK MRACHNO..ZNAMENNY PRIZNAK MODIFIER ROG",
text! "1D165..1D166  ; Grapheme_Extend # Mc   [2] MUSICAL SYMBOL COMBINING STEM..MUSICAL SYMBOL COMBINING SPRECHGESANG STEM",
text! "1D167..1D169  ; Grapheme_Extend # Mn   [3] MUSICAL SYMBOL COMBINING TREMOLO-1..MUSICAL SYMBOL COMBINING TREMOLO-3",
text! "1D16D..1D172  ; Grapheme_Extend # Mc   [6] MUSICAL SYMBOL COMBINING AUGMENTATION DOT..MUSICAL SYMBOL COMBINING FLAG-5",
text! "1D17B..1D182  ; Grapheme_Extend # Mn   [8] MUSICAL SYMBOL COMBINING ACCENT..MUSICAL SYMBOL COMBINING LOURE",
text! "1D185..1D18B  ; Grapheme_Extend # Mn   [7] MUSICAL SYMBOL COMBINING DOIT..MUSICAL SYMBOL COMBINING TRIPLE TONGUE",
text! "1D1AA..1D1AD  ; Grapheme_Extend # Mn   [4] MUSICAL SYMBOL COMBINING DOWN BOW..MUSICAL SYMBOL COMBINING SNAP PIZZICATO",
text! "1D242..1D244  ; Grapheme_Extend # Mn   [3] COMBINING GREEK MUSICAL TRISEME..COMBINING GREEK MUSICAL PENTASEME",
text! "1DA00..1DA36  ; Grapheme_Extend # Mn  [55] SIGNWRITING HEAD RIM..SIGNWRITING AIR SUCKING IN",
text! "1DA3B..1DA6C  ; Grapheme_Extend # Mn  [50] SIGNWRITING MOUTH CLOSED NEUTRAL..SIGNWRITING EXCITEMENT",
text! "1DA75         ; Grapheme_Extend # Mn       SIGNWRITING UPPER BODY TILTING FROM HIP JOINTS",
text! "1DA84         ; Grapheme_Extend # Mn       SIGNWRITING LOCATION HEAD NECK",
text! "1DA9B..1DA9F  ; Grapheme_Extend # Mn   [5] SIGNWRITING FILL MODIFIER-2..SIGNWRITING FILL MODIFIER-6",
text! "1DAA1..1DAAF  ; Grapheme_Extend # Mn  [15] SIGNWRITING ROTATION MODIFIER-2..SIGNWRITING ROTATION MODIFIER-16",
text! "1E000..1E006  ; Grapheme_Extend # Mn   [7] COMBINING GLAGOLITIC LETTER AZU..COMBINING GLAGOLITIC LETTER ZHIVETE",
text! "1E008..1E018  ; Grapheme_Extend # Mn  [17] COMBINING GLAGOLITIC LETTER ZEMLJA..COMBINING GLAGOLITIC LETTER HERU",
text! "1E01B..1E021  ; Grapheme_Extend # Mn   [7] COMBINING GLAGOLITIC LETTER SHTA..COMBINING GLAGOLITIC LETTER YATI",
text! "1E023..1E024  ; Grapheme_Extend # Mn   [2] COMBINING GLAGOLITIC LETTER YU..COMBINING GLAGOLITIC LETTER SMALL YUS",
text! "1E026..1E02A  ; Grapheme_Extend # Mn   [5] COMBINING GLAGOLITIC LETTER YO..COMBINING GLAGOLITIC LETTER FITA",
text! "1E08F         ; Grapheme_Extend # Mn       COMBINING CYRILLIC SMALL LETTER BYELORUSSIAN-UKRAINIAN I",
text! "1E130..1E136  ; Grapheme_Extend # Mn   [7] NYIAKENG PUACHUE HMONG TONE-B..NYIAKENG PUACHUE HMONG TONE-D",
text! "1E2AE         ; Grapheme_Extend # Mn       TOTO SIGN RISING TONE",
text! "1E2EC..1E2EF  ; Grapheme_Extend # Mn   [4] WANCHO TONE TUP..WANCHO TONE KOINI",
text! "1E4EC..1E4EF  ; Grapheme_Extend # Mn   [4] NAG MUNDARI SIGN MUHOR..NAG MUNDARI SIGN SUTUH",
text! "1E5EE..1E5EF  ; Grapheme_Extend # Mn   [2] OL ONAL SIGN MU..OL ONAL SIGN IKIR",
text! "1E6E3         ; Grapheme_Extend # Mn       TAI YO SIGN UE",
text! "1E6E6         ; Grapheme_Extend # Mn       TAI YO SIGN AU",
text! "1E6EE..1E6EF  ; Grapheme_Extend # Mn   [2] TAI YO SIGN AY..TAI YO SIGN ANG",
text! "1E6F5         ; Grapheme_Extend # Mn       TAI YO SIGN OM",
text! "1E8D0..1E8D6  ; Grapheme_Extend # Mn   [7] MENDE KIKAKUI COMBINING NUMBER TEENS..MENDE KIKAKUI COMBINING NUMBER MILLIONS",
text! "1E944..1E94A  ; Grapheme_Extend # Mn   [7] ADLAM ALIF LENGTHENER..ADLAM NUKTA",
text! "E0020..E007F  ; Grapheme_Extend # Cf  [96] TAG SPACE..CANCEL TAG",
text! "E0100..E01EF  ; Grapheme_Extend # Mn [240] VARIATION SELECTOR-17..VARIATION SELECTOR-256",
text! "",
text! "# Total code points: 2232",
text! "",
text! "# ================================================",
text! "",
text! "# Derived Property: Grapheme_Base",
text! "#  Generated from: [0..10FFFF] - Cc - Cf - Cs - Co - Cn - Zl - Zp - Grapheme_Extend",
text! "#  Note: depending on an application's interpretation of Co (private use),",
text! "#  they may be either in Grapheme_Base, or in Grapheme_Extend, or in neither.",
text! "",
text! "0020          ; Grapheme_Base # Zs       SPACE",
text! "0021..0023    ; Grapheme_Base # Po   [3] EXCLAMATION MARK..NUMBER SIGN",
text! "0024          ; Grapheme_Base # Sc       DOLLAR SIGN",
text! "0025..0027    ; Grapheme_Base # Po   [3] PERCENT SIGN..APOSTROPHE",
text! "0028          ; Grapheme_Base # Ps       LEFT PARENTHESIS",
text! "0029          ; Grapheme_Base # Pe       RIGHT PARENTHESIS",
text! "002A          ; Grapheme_Base # Po       ASTERISK",
text! "002B          ; Grapheme_Base # Sm       PLUS SIGN",
text! "002C          ; Grapheme_Base # Po       COMMA",
text! "002D          ; Grapheme_Base # Pd       HYPHEN-MINUS",
text! "002E..002F    ; Grapheme_Base # Po   [2] FULL STOP..SOLIDUS",
text! "0030..0039    ; Grapheme_Base # Nd  [10] DIGIT ZERO..DIGIT NINE",
text! "003A..003B    ; Grapheme_Base # Po   [2] COLON..SEMICOLON"]

/-- lines 11201-11264 -/
def derivedCore175 : List Nat := [
text! "003C..003E    ; Grapheme_Base # Sm   [3] LESS-THAN SIGN..GREATER-THAN SIGN",
text! "003F..0040    ; Grapheme_Base # Po   [2] QUESTION MARK..COMMERCIAL AT",
text! "0041..005A    ; Grapheme_Base # L&  [26] LATIN CAPITAL LETTER A..LATIN CAPITAL LETTER Z",
text! "005B          ; Grapheme_Base # Ps       LEFT SQUARE BRACKET",
text! "005C          ; Grapheme_Base # Po       REVERSE SOLIDUS",
text! "005D          ; Grapheme_Base # Pe       RIGHT SQUARE BRACKET",
text! "005E          ; Grapheme_Base # Sk       CIRCUMFLEX ACCENT",
text! "005F          ; Grapheme_Base # Pc       LOW LINE",
text! "0060          ; Grapheme_Base # Sk       GRAVE ACCENT",
text! "0061..007A    ; Grapheme_Base # L&  [26] LATIN SMALL LETTER A..LATIN SMALL LETTER Z",
text! "007B          ; Grapheme_Base # Ps       LEFT CURLY BRACKET",
text! "007C          ; Grapheme_Base # Sm       VERTICAL LINE",
text! "007D          ; Grapheme_Base # Pe       RIGHT CURLY BRACKET",
text! "007E          ; Grapheme_Base # Sm       TILDE",
text! "00A0          ; Grapheme_Base # Zs       NO-BREAK SPACE",
text! "00A1          ; Grapheme_Base # Po       INVERTED EXCLAMATION MARK",
text! "00A2..00A5    ; Grapheme_Base # Sc   [4] CENT SIGN..YEN SIGN",
text! "00A6          ; Grapheme_Base # So       BROKEN BAR",
text! "00A7          ; Grapheme_Base # Po       SECTION SIGN",
text! "00A8          ; Grapheme_Base # Sk       DIAERESIS",
text! "00A9          ; Grapheme_Base # So       COPYRIGHT SIGN",
text! "00AA          ; Grapheme_Base # Lo       FEMININE ORDINAL INDICATOR",
text! "00AB          ; Grapheme_Base # Pi       LEFT-POINTING DOUBLE ANGLE QUOTATION MARK",
text! "00AC          ; Grapheme_Base # Sm       NOT SIGN",
text! "00AE          ; Grapheme_Base # So       REGISTERED SIGN",
text! "00AF          ; Grapheme_Base # Sk       MACRON",
text! "00B0          ; Grapheme_Base # So       DEGREE SIGN",
text! "00B1          ; Grapheme_Base # Sm       PLUS-MINUS SIGN",
text! "00B2..00B3    ; Grapheme_Base # No   [2] SUPERSCRIPT TWO..SUPERSCRIPT THREE",
text! "00B4          ; Grapheme_Base # Sk       ACUTE ACCENT",
text! "00B5          ; Grapheme_Base # L&       MICRO SIGN",
text! "00B6..00B7    ; Grapheme_Base # Po   [2] PILCROW SIGN..MIDDLE DOT",
text! "00B8          ; Grapheme_Base # Sk       CEDILLA",
text! "00B9          ; Grapheme_Base # No       SUPERSCRIPT ONE",
text! "00BA          ; Grapheme_Base # Lo       MASCULINE ORDINAL INDICATOR",
text! "00BB          ; Grapheme_Base # Pf       RIGHT-POINTING DOUBLE ANGLE QUOTATION MARK",
text! "00BC..00BE    ; Grapheme_Base # No   [3] VULGAR FRACTION ONE QUARTER..VULGAR FRACTION THREE QUARTERS",
text! "00BF          ; Grapheme_Base # Po       INVERTED QUESTION MARK",
text! "00C0..00D6    ; Grapheme_Base # L&  [23] LATIN CAPITAL LETTER A WITH GRAVE..LATIN CAPITAL LETTER O WITH DIAERESIS",
text! "00D7          ; Grapheme_Base # Sm       MULTIPLICATION SIGN",
text! "00D8..00F6    ; Grapheme_Base # L&  [31] LATIN CAPITAL LETTER O WITH STROKE..LATIN SMALL LETTER O WITH DIAERESIS",
text! "00F7          ; Grapheme_Base # Sm       DIVISION SIGN",
text! "00F8..01BA    ; Grapheme_Base # L& [195] LATIN SMALL LETTER O WITH STROKE..LATIN SMALL LETTER EZH WITH TAIL",
text! "01BB          ; Grapheme_Base # Lo       LATIN LETTER TWO WITH STROKE",
text! "01BC..01BF    ; Grapheme_Base # L&   [4] LATIN CAPITAL LETTER TONE FIVE..LATIN LETTER WYNN",
text! "01C0..01C3    ; Grapheme_Base # Lo   [4] LATIN LETTER DENTAL CLICK..LATIN LETTER RETROFLEX CLICK",
text! "01C4..0293    ; Grapheme_Base # L& [208] LATIN CAPITAL LETTER DZ WITH CARON..LATIN SMALL LETTER EZH WITH CURL",
text! "0294..0295    ; Grapheme_Base # Lo   [2] LATIN LETTER GLOTTAL STOP..LATIN LETTER PHARYNGEAL VOICED FRICATIVE",
text! "0296..02AF    ; Grapheme_Base # L&  [26] LATIN LETTER INVERTED GLOTTAL STOP..LATIN SMALL LETTER TURNED H WITH FISHHOOK AND TAIL",
text! "02B0..02C1    ; Grapheme_Base # Lm  [18] MODIFIER LETTER SMALL H..MODIFIER LETTER REVERSED GLOTTAL STOP",
text! "02C2..02C5    ; Grapheme_Base # Sk   [4] MODIFIER LETTER LEFT ARROWHEAD..MODIFIER LETTER DOWN ARROWHEAD",
text! "02C6..02D1    ; Grapheme_Base # Lm  [12] MODIFIER LETTER CIRCUMFLEX ACCENT..MODIFIER LETTER HALF TRIANGULAR COLON",
text! "02D2..02DF    ; Grapheme_Base # Sk  [14] MODIFIER LETTER CENTRED RIGHT HALF RING..MODIFIER LETTER CROSS ACCENT",
text! "02E0..02E4    ; Grapheme_Base # Lm   [5] MODIFIER LETTER SMALL GAMMA..MODIFIER LETTER SMALL REVERSED GLOTTAL STOP",
text! "02E5..02EB    ; Grapheme_Base # Sk   [7] MODIFIER LETTER EXTRA-HIGH TONE BAR..MODIFIER LETTER YANG DEPARTING TONE MARK",
text! "02EC          ; Grapheme_Base # Lm       MODIFIER LETTER VOICING",
text! "02ED          ; Grapheme_Base # Sk       MODIFIER LETTER UNASPIRATED",
text! "02EE          ; Grapheme_Base # Lm       MODIFIER LETTER DOUBLE APOSTROPHE",
text! "02EF..02FF    ; Grapheme_Base # Sk  [17] MODIFIER LETTER LOW DOWN ARROWHEAD..MODIFIER LETTER LOW LEFT ARROW",
text! "0370..0373    ; Grapheme_Base # L&   [4] GREEK CAPITAL LETTER HETA..GREEK SMALL LETTER ARCHAIC SAMPI",
text! "0374          ; Grapheme_Base # Lm       GREEK NUMERAL SIGN",
text! "0375          ; Grapheme_Base # Sk       GREEK LOWER NUMERAL SIGN",
text! "0376..0377    ; Grapheme_Base # L&   [2] GREEK CAPITAL LETTER PAMPHYLIAN DIGAMMA..GREEK SMALL LETTER PAMPHYLIAN DIGAMMA",
text! "037A          ; Grapheme_Base # Lm       GREEK YPOGEGRAMMENI"]

/-- lines 11265-11328 -/
def derivedCore176 : List Nat := [
text! "037B..037D    ; Grapheme_Base # L&   [3] GREEK SMALL REVERSED LUNATE SIGMA SYMBOL..GREEK SMALL REVERSED DOTTED LUNATE SIGMA SYMBOL",
text! "037E          ; Grapheme_Base # Po       GREEK QUESTION MARK",
text! "037F          ; Grapheme_Base # L&       GREEK CAPITAL LETTER YOT",
text! "0384..0385    ; Grapheme_Base # Sk   [2] GREEK TONOS..GREEK DIALYTIKA TONOS",
text! "0386          ; Grapheme_Base # L&       GREEK CAPITAL LETTER ALPHA WITH TONOS",
text! "0387          ; Grapheme_Base # Po       GREEK ANO TELEIA",
text! "0388..038A    ; Grapheme_Base # L&   [3] GREEK CAPITAL LETTER EPSILON WITH TONOS..GREEK CAPITAL LETTER IOTA WITH TONOS",
text! "038C          ; Grapheme_Base # L&       GREEK CAPITAL LETTER OMICRON WITH TONOS",
text! "038E..03A1    ; Grapheme_Base # L&  [20] GREEK CAPITAL LETTER UPSILON WITH TONOS..GREEK CAPITAL LETTER RHO",
text! "03A3..03F5    ; Grapheme_Base # L&  [83] GREEK CAPITAL LETTER SIGMA..GREEK LUNATE EPSILON SYMBOL",
text! "03F6          ; Grapheme_Base # Sm       GREEK REVERSED LUNATE EPSILON SYMBOL",
text! "03F7..0481    ; Grapheme_Base # L& [139] GREEK CAPITAL LETTER SHO..CYRILLIC SMALL LETTER KOPPA",
text! "0482          ; Grapheme_Base # So       CYRILLIC THOUSANDS SIGN",
text! "048A..052F    ; Grapheme_Base # L& [166] CYRILLIC CAPITAL LETTER SHORT I WITH TAIL..CYRILLIC SMALL LETTER EL WITH DESCENDER",
text! "0531..0556    ; Grapheme_Base # L&  [38] ARMENIAN CAPITAL LETTER AYB..ARMENIAN CAPITAL LETTER FEH",
text! "0559          ; Grapheme_Base # Lm       ARMENIAN MODIFIER LETTER LEFT HALF RING",
text! "055A..055F    ; Grapheme_Base # Po   [6] ARMENIAN APOSTROPHE..ARMENIAN ABBREVIATION MARK",
text! "0560..0588    ; Grapheme_Base # L&  [41] ARMENIAN SMALL LETTER TURNED AYB..ARMENIAN SMALL LETTER YI WITH STROKE",
text! "0589          ; Grapheme_Base # Po       ARMENIAN FULL STOP",
text! "058A          ; Grapheme_Base # Pd       ARMENIAN HYPHEN",
text! "058D..058E    ; Grapheme_Base # So   [2] RIGHT-FACING ARMENIAN ETERNITY SIGN..LEFT-FACING ARMENIAN ETERNITY SIGN",
text! "058F          ; Grapheme_Base # Sc       ARMENIAN DRAM SIGN",
text! "05BE          ; Grapheme_Base # Pd       HEBREW PUNCTUATION MAQAF",
text! "05C0          ; Grapheme_Base # Po       HEBREW PUNCTUATION PASEQ",
text! "05C3          ; Grapheme_Base # Po       HEBREW PUNCTUATION SOF PASUQ",
text! "05C6          ; Grapheme_Base # Po       HEBREW PUNCTUATION NUN HAFUKHA",
text! "05D0..05EA    ; Grapheme_Base # Lo  [27] HEBREW LETTER ALEF..HEBREW LETTER TAV",
text! "05EF..05F2    ; Grapheme_Base # Lo   [4] HEBREW YOD TRIANGLE..HEBREW LIGATURE YIDDISH DOUBLE YOD",
text! "05F3..05F4    ; Grapheme_Base # Po   [2] HEBREW PUNCTUATION GERESH..HEBREW PUNCTUATION GERSHAYIM",
text! "0606..0608    ; Grapheme_Base # Sm   [3] ARABIC-INDIC CUBE ROOT..ARABIC RAY",
text! "0609..060A    ; Grapheme_Base # Po   [2] ARABIC-INDIC PER MILLE SIGN..ARABIC-INDIC PER TEN THOUSAND SIGN",
text! "060B          ; Grapheme_Base # Sc       AFGHANI SIGN",
text! "060C..060D    ; Grapheme_Base # Po   [2] ARABIC COMMA..ARABIC DATE SEPARATOR",
text! "060E..060F    ; Grapheme_Base # So   [2] ARABIC POETIC VERSE SIGN..ARABIC SIGN MISRA",
text! "061B          ; Grapheme_Base # Po       ARABIC SEMICOLON",
text! "061D..061F    ; Grapheme_Base # Po   [3] ARABIC END OF TEXT MARK..ARABIC QUESTION MARK",
text! "0620..063F    ; Grapheme_Base # Lo  [32] ARABIC LETTER KASHMIRI YEH..ARABIC LETTER FARSI YEH WITH THREE DOTS ABOVE",
text! "0640          ; Grapheme_Base # Lm       ARABIC TATWEEL",
text! "0641..064A    ; Grapheme_Base # Lo  [10] ARABIC LETTER FEH..ARABIC LETTER YEH",
text! "0660..0669    ; Grapheme_Base # Nd  [10] ARABIC-INDIC DIGIT ZERO..ARABIC-INDIC DIGIT NINE",
text! "066A..066D    ; Grapheme_Base # Po   [4] ARABIC PERCENT SIGN..ARABIC FIVE POINTED STAR",
text! "066E..066F    ; Grapheme_Base # Lo   [2] ARABIC LETTER DOTLESS BEH..ARABIC LETTER DOTLESS QAF",
text! "0671..06D3    ; Grapheme_Base # Lo  [99] ARABIC LETTER ALEF WASLA..ARABIC LETTER YEH BARREE WITH HAMZA ABOVE",
text! "06D4          ; Grapheme_Base # Po       ARABIC FULL STOP",
text! "06D5          ; Grapheme_Base # Lo       ARABIC LETTER AE",
text! "06DE          ; Grapheme_Base # So       ARABIC START OF RUB EL HIZB",
text! "06E5..06E6    ; Grapheme_Base # Lm   [2] ARABIC SMALL WAW..ARABIC SMALL YEH",
text! "06E9          ; Grapheme_Base # So       ARABIC PLACE OF SAJDAH",
text! "06EE..06EF    ; Grapheme_Base # Lo   [2] ARABIC LETTER DAL WITH INVERTED V..ARABIC LETTER REH WITH INVERTED V",
text! "06F0..06F9    ; Grapheme_Base # Nd  [10] EXTENDED ARABIC-INDIC DIGIT ZERO..EXTENDED ARABIC-INDIC DIGIT NINE",
text! "06FA..06FC    ; Grapheme_Base # Lo   [3] ARABIC LETTER SHEEN WITH DOT BELOW..ARABIC LETTER GHAIN WITH DOT BELOW",
text! "06FD..06FE    ; Grapheme_Base # So   [2] ARABIC SIGN SINDHI AMPERSAND..ARABIC SIGN SINDHI POSTPOSITION MEN",
text! "06FF          ; Grapheme_Base # Lo       ARABIC LETTER HEH WITH INVERTED V",
text! "0700..070D    ; Grapheme_Base # Po  [14] SYRIAC END OF PARAGRAPH..SYRIAC HARKLEAN ASTERISCUS",
text! "0710          ; Grapheme_Base # Lo       SYRIAC LETTER ALAPH",
text! "0712..072F    ; Grapheme_Base # Lo  [30] SYRIAC LETTER BETH..SYRIAC LETTER PERSIAN DHALATH",
text! "074D..07A5    ; Grapheme_Base # Lo  [89] SYRIAC LETTER SOGDIAN ZHAIN..THAANA LETTER WAAVU",
text! "07B1          ; Grapheme_Base # Lo       THAANA LETTER NAA",
text! "07C0..07C9    ; Grapheme_Base # Nd  [10] NKO DIGIT ZERO..NKO DIGIT NINE",
text! "07CA..07EA    ; Grapheme_Base # Lo  [33] NKO LETTER A..NKO LETTER JONA RA",
text! "07F4..07F5    ; Grapheme_Base # Lm   [2] NKO HIGH TONE APOSTROPHE..NKO LOW TONE APOSTROPHE",
text! "07F6          ; Grapheme_Base # So       NKO SYMBOL OO DENNEN",
text! "07F7..07F9    ; Grapheme_Base # Po   [3] NKO SYMBOL GBAKURUNEN..NKO EXCLAMATION MARK",
text! "07FA          ; Grapheme_Base # Lm       NKO LAJANYALAN"]

/-- lines 11329-11392 -/
def derivedCore177 : List Nat := [
text! "07FE..07FF    ; Grapheme_Base # Sc   [2] NKO DOROME SIGN..NKO TAMAN SIGN",
text! "0800..0815    ; Grapheme_Base # Lo  [22] SAMARITAN LETTER ALAF..SAMARITAN LETTER TAAF",
text! "081A          ; Grapheme_Base # Lm       SAMARITAN MODIFIER LETTER EPENTHETIC YUT",
text! "0824          ; Grapheme_Base # Lm       SAMARITAN MODIFIER LETTER SHORT A",
text! "0828          ; Grapheme_Base # Lm       SAMARITAN MODIFIER LETTER I",
text! "0830..083E    ; Grapheme_Base # Po  [15] SAMARITAN PUNCTUATION NEQUDAA..SAMARITAN PUNCTUATION ANNAAU",
text! "0840..0858    ; Grapheme_Base # Lo  [25] MANDAIC LETTER HALQA..MANDAIC LETTER AIN",
text! "085E          ; Grapheme_Base # Po       MANDAIC PUNCTUATION",
text! "0860..086A    ; Grapheme_Base # Lo  [11] SYRIAC LETTER MALAYALAM NGA..SYRIAC LETTER MALAYALAM SSA",
text! "0870..0887    ; Grapheme_Base # Lo  [24] ARABIC LETTER ALEF WITH ATTACHED FATHA..ARABIC BASELINE ROUND DOT",
text! "0888          ; Grapheme_Base # Sk       ARABIC RAISED ROUND DOT",
text! "0889..088F    ; Grapheme_Base # Lo   [7] ARABIC LETTER NOON WITH INVERTED SMALL V..ARABIC LETTER NOON WITH RING ABOVE",
text! "08A0..08C8    ; Grapheme_Base # Lo  [41] ARABIC LETTER BEH WITH SMALL V BELOW..ARABIC LETTER GRAF",
text! "08C9          ; Grapheme_Base # Lm       ARABIC SMALL FARSI YEH",
text! "0903          ; Grapheme_Base # Mc       DEVANAGARI SIGN VISARGA",
text! "0904..0939    ; Grapheme_Base # Lo  [54] DEVANAGARI LETTER SHORT A..DEVANAGARI LETTER HA",
text! "093B          ; Grapheme_Base # Mc       DEVANAGARI VOWEL SIGN OOE",
text! "093D          ; Grapheme_Base # Lo       DEVANAGARI SIGN AVAGRAHA",
text! "093E..0940    ; Grapheme_Base # Mc   [3] DEVANAGARI VOWEL SIGN AA..DEVANAGARI VOWEL SIGN II",
text! "0949..094C    ; Grapheme_Base # Mc   [4] DEVANAGARI VOWEL SIGN CANDRA O..DEVANAGARI VOWEL SIGN AU",
text! "094E..094F    ; Grapheme_Base # Mc   [2] DEVANAGARI VOWEL SIGN PRISHTHAMATRA E..DEVANAGARI VOWEL SIGN AW",
text! "0950          ; Grapheme_Base # Lo       DEVANAGARI OM",
text! "0958..0961    ; Grapheme_Base # Lo  [10] DEVANAGARI LETTER QA..DEVANAGARI LETTER VOCALIC LL",
text! "0964..0965    ; Grapheme_Base # Po   [2] DEVANAGARI DANDA..DEVANAGARI DOUBLE DANDA",
text! "0966..096F    ; Grapheme_Base # Nd  [10] DEVANAGARI DIGIT ZERO..DEVANAGARI DIGIT NINE",
text! "0970          ; Grapheme_Base # Po       DEVANAGARI ABBREVIATION SIGN",
text! "0971          ; Grapheme_Base # Lm       DEVANAGARI SIGN HIGH SPACING DOT",
text! "0972..0980    ; Grapheme_Base # Lo  [15] DEVANAGARI LETTER CANDRA A..BENGALI ANJI",
text! "0982..0983    ; Grapheme_Base # Mc   [2] BENGALI SIGN ANUSVARA..BENGALI SIGN VISARGA",
text! "0985..098C    ; Grapheme_Base # Lo   [8] BENGALI LETTER A..BENGALI LETTER VOCALIC L",
text! "098F..0990    ; Grapheme_Base # Lo   [2] BENGALI LETTER E..BENGALI LETTER AI",
text! "0993..09A8    ; Grapheme_Base # Lo  [22] BENGALI LETTER O..BENGALI LETTER NA",
text! "09AA..09B0    ; Grapheme_Base # Lo   [7] BENGALI LETTER PA..BENGALI LETTER RA",
text! "09B2          ; Grapheme_Base # Lo       BENGALI LETTER LA",
text! "09B6..09B9    ; Grapheme_Base # Lo   [4] BENGALI LETTER SHA..BENGALI LETTER HA",
text! "09BD          ; Grapheme_Base # Lo       BENGALI SIGN AVAGRAHA",
text! "09BF..09C0    ; Grapheme_Base # Mc   [2] BENGALI VOWEL SIGN I..BENGALI VOWEL SIGN II",
text! "09C7..09C8    ; Grapheme_Base # Mc   [2] BENGALI VOWEL SIGN E..BENGALI VOWEL SIGN AI",
text! "09CB..09CC    ; Grapheme_Base # Mc   [2] BENGALI VOWEL SIGN O..BENGALI VOWEL SIGN AU",
text! "09CE          ; Grapheme_Base # Lo       BENGALI LETTER KHANDA TA",
text! "09DC..09DD    ; Grapheme_Base # Lo   [2] BENGALI LETTER RRA..BENGALI LETTER RHA",
text! "09DF..09E1    ; Grapheme_Base # Lo   [3] BENGALI LETTER YYA..BENGALI LETTER VOCALIC LL",
text! "09E6..09EF    ; Grapheme_Base # Nd  [10] BENGALI DIGIT ZERO..BENGALI DIGIT NINE",
text! "09F0..09F1    ; Grapheme_Base # Lo   [2] BENGALI LETTER RA WITH MIDDLE DIAGONAL..BENGALI LETTER RA WITH LOWER DIAGONAL",
text! "09F2..09F3    ; Grapheme_Base # Sc   [2] BENGALI RUPEE MARK..BENGALI RUPEE SIGN",
text! "09F4..09F9    ; Grapheme_Base # No   [6] BENGALI CURRENCY NUMERATOR ONE..BENGALI CURRENCY DENOMINATOR SIXTEEN",
text! "09FA          ; Grapheme_Base # So       BENGALI ISSHAR",
text! "09FB          ; Grapheme_Base # Sc       BENGALI GANDA MARK",
text! "09FC          ; Grapheme_Base # Lo       BENGALI LETTER VEDIC ANUSVARA",
text! "09FD          ; Grapheme_Base # Po       BENGALI ABBREVIATION SIGN",
text! "0A03          ; Grapheme_Base # Mc       GURMUKHI SIGN VISARGA",
text! "0A05..0A0A    ; Grapheme_Base # Lo   [6] GURMUKHI LETTER A..GURMUKHI LETTER UU",
text! "0A0F..0A10    ; Grapheme_Base # Lo   [2] GURMUKHI LETTER EE..GURMUKHI LETTER AI",
text! "0A13..0A28    ; Grapheme_Base # Lo  [22] GURMUKHI LETTER OO..GURMUKHI LETTER NA",
text! "0A2A..0A30    ; Grapheme_Base # Lo   [7] GURMUKHI LETTER PA..GURMUKHI LETTER RA",
text! "0A32..0A33    ; Grapheme_Base # Lo   [2] GURMUKHI LETTER LA..GURMUKHI LETTER LLA",
text! "0A35..0A36    ; Grapheme_Base # Lo   [2] GURMUKHI LETTER VA..GURMUKHI LETTER SHA",
text! "0A38..0A39    ; Grapheme_Base # Lo   [2] GURMUKHI LETTER SA..GURMUKHI LETTER HA",
text! "0A3E..0A40    ; Grapheme_Base # Mc   [3] GURMUKHI VOWEL SIGN AA..GURMUKHI VOWEL SIGN II",
text! "0A59..0A5C    ; Grapheme_Base # Lo   [4] GURMUKHI LETTER KHHA..GURMUKHI LETTER RRA",
text! "0A5E          ; Grapheme_Base # Lo       GURMUKHI LETTER FA",
text! "0A66..0A6F    ; Grapheme_Base # Nd  [10] GURMUKHI DIGIT ZERO..GURMUKHI DIGIT NINE",
text! "0A72..0A74    ; Grapheme_Base # Lo   [3] GURMUKHI IRI..GURMUKHI EK ONKAR",
text! "0A76          ; Grapheme_Base # Po       GURMUKHI ABBREVIATION SIGN"]

/-- lines 11393-11456 -/
def derivedCore178 : List Nat := [
text! "0A83          ; Grapheme_Base # Mc       GUJARATI SIGN VISARGA",
text! "0A85..0A8D    ; Grapheme_Base # Lo   [9] GUJARATI LETTER A..GUJARATI VOWEL CANDRA E",
text! "0A8F..0A91    ; Grapheme_Base # Lo   [3] GUJARATI LETTER E..GUJARATI VOWEL CANDRA O",
text! "0A93..0AA8    ; Grapheme_Base # Lo  [22] GUJARATI LETTER O..GUJARATI LETTER NA",
text! "0AAA..0AB0    ; Grapheme_Base # Lo   [7] GUJARATI LETTER PA..GUJARATI LETTER RA",
text! "0AB2..0AB3    ; Grapheme_Base # Lo   [2] GUJARATI LETTER LA..GUJARATI LETTER LLA",
text! "0AB5..0AB9    ; Grapheme_Base # Lo   [5] GUJARATI LETTER VA..GUJARATI LETTER HA",
text! "0ABD          ; Grapheme_Base # Lo       GUJARATI SIGN AVAGRAHA",
text! "0ABE..0AC0    ; Grapheme_Base # Mc   [3] GUJARATI VOWEL SIGN AA..GUJARATI VOWEL SIGN II",
text! "0AC9          ; Grapheme_Base # Mc       GUJARATI VOWEL SIGN CANDRA O",
text! "0ACB..0ACC    ; Grapheme_Base # Mc   [2] GUJARATI VOWEL SIGN O..GUJARATI VOWEL SIGN AU",
text! "0AD0          ; Grapheme_Base # Lo       GUJARATI OM",
text! "0AE0..0AE1    ; Grapheme_Base # Lo   [2] GUJARATI LETTER VOCALIC RR..GUJARATI LETTER VOCALIC LL",
text! "0AE6..0AEF    ; Grapheme_Base # Nd  [10] GUJARATI DIGIT ZERO..GUJARATI DIGIT NINE",
text! "0AF0          ; Grapheme_Base # Po       GUJARATI ABBREVIATION SIGN",
text! "0AF1          ; Grapheme_Base # Sc       GUJARATI RUPEE SIGN",
text! "0AF9          ; Grapheme_Base # Lo       GUJARATI LETTER ZHA",
text! "0B02..0B03    ; Grapheme_Base # Mc   [2] ORIYA SIGN ANUSVARA..ORIYA SIGN VISARGA",
text! "0B05..0B0C    ; Grapheme_Base # Lo   [8] ORIYA LETTER A..ORIYA LETTER VOCALIC L",
text! "0B0F..0B10    ; Grapheme_Base # Lo   [2] ORIYA LETTER E..ORIYA LETTER AI",
text! "0B13..0B28    ; Grapheme_Base # Lo  [22] ORIYA LETTER O..ORIYA LETTER NA",
text! "0B2A..0B30    ; Grapheme_Base # Lo   [7] ORIYA LETTER PA..ORIYA LETTER RA",
text! "0B32..0B33    ; Grapheme_Base # Lo   [2] ORIYA LETTER LA..ORIYA LETTER LLA",
text! "0B35..0B39    ; Grapheme_Base # Lo   [5] ORIYA LETTER VA..ORIYA LETTER HA",
text! "0B3D          ; Grapheme_Base # Lo       ORIYA SIGN AVAGRAHA",
text! "0B40          ; Grapheme_Base # Mc       ORIYA VOWEL SIGN II",
text! "0B47..0B48    ; Grapheme_Base # Mc   [2] ORIYA VOWEL SIGN E..ORIYA VOWEL SIGN AI",
text! "0B4B..0B4C    ; Grapheme_Base # Mc   [2] ORIYA VOWEL SIGN O..ORIYA VOWEL SIGN AU",
text! "0B5C..0B5D    ; Grapheme_Base # Lo   [2] ORIYA LETTER RRA..ORIYA LETTER RHA",
text! "0B5F..0B61    ; Grapheme_Base # Lo   [3] ORIYA LETTER YYA..ORIYA LETTER VOCALIC LL",
text! "0B66..0B6F    ; Grapheme_Base # Nd  [10] ORIYA DIGIT ZERO..ORIYA DIGIT NINE",
text! "0B70          ; Grapheme_Base # So       ORIYA ISSHAR",
text! "0B71          ; Grapheme_Base # Lo       ORIYA LETTER WA",
text! "0B72..0B77    ; Grapheme_Base # No   [6] ORIYA FRACTION ONE QUARTER..ORIYA FRACTION THREE SIXTEENTHS",
text! "0B83          ; Grapheme_Base # Lo       TAMIL SIGN VISARGA",
text! "0B85..0B8A    ; Grapheme_Base # Lo   [6] TAMIL LETTER A..TAMIL LETTER UU",
text! "0B8E..0B90    ; Grapheme_Base # Lo   [3] TAMIL LETTER E..TAMIL LETTER AI",
text! "0B92..0B95    ; Grapheme_Base # Lo   [4] TAMIL LETTER O..TAMIL LETTER KA",
text! "0B99..0B9A    ; Grapheme_Base # Lo   [2] TAMIL LETTER NGA..TAMIL LETTER CA",
text! "0B9C          ; Grapheme_Base # Lo       TAMIL LETTER JA",
text! "0B9E..0B9F    ; Grapheme_Base # Lo   [2] TAMIL LETTER NYA..TAMIL LETTER TTA",
text! "0BA3..0BA4    ; Grapheme_Base # Lo   [2] TAMIL LETTER NNA..TAMIL LETTER TA",
text! "0BA8..0BAA    ; Grapheme_Base # Lo   [3] TAMIL LETTER NA..TAMIL LETTER PA",
text! "0BAE..0BB9    ; Grapheme_Base # Lo  [12] TAMIL LETTER MA..TAMIL LETTER HA",
text! "0BBF          ; Grapheme_Base # Mc       TAMIL VOWEL SIGN I",
text! "0BC1..0BC2    ; Grapheme_Base # Mc   [2] TAMIL VOWEL SIGN U..TAMIL VOWEL SIGN UU",
text! "0BC6..0BC8    ; Grapheme_Base # Mc   [3] TAMIL VOWEL SIGN E..TAMIL VOWEL SIGN AI",
text! "0BCA..0BCC    ; Grapheme_Base # Mc   [3] TAMIL VOWEL SIGN O..TAMIL VOWEL SIGN AU",
text! "0BD0          ; Grapheme_Base # Lo       TAMIL OM",
text! "0BE6..0BEF    ; Grapheme_Base # Nd  [10] TAMIL DIGIT ZERO..TAMIL DIGIT NINE",
text! "0BF0..0BF2    ; Grapheme_Base # No   [3] TAMIL NUMBER TEN..TAMIL NUMBER ONE THOUSAND",
text! "0BF3..0BF8    ; Grapheme_Base # So   [6] TAMIL DAY SIGN..TAMIL AS ABOVE SIGN",
text! "0BF9          ; Grapheme_Base # Sc       TAMIL RUPEE SIGN",
text! "0BFA          ; Grapheme_Base # So       TAMIL NUMBER SIGN",
text! "0C01..0C03    ; Grapheme_Base # Mc   [3] TELUGU SIGN CANDRABINDU..TELUGU SIGN VISARGA",
text! "0C05..0C0C    ; Grapheme_Base # Lo   [8] TELUGU LETTER A..TELUGU LETTER VOCALIC L",
text! "0C0E..0C10    ; Grapheme_Base # Lo   [3] TELUGU LETTER E..TELUGU LETTER AI",
text! "0C12..0C28    ; Grapheme_Base # Lo  [23] TELUGU LETTER O..TELUGU LETTER NA",
text! "0C2A..0C39    ; Grapheme_Base # Lo  [16] TELUGU LETTER PA..TELUGU LETTER HA",
text! "0C3D          ; Grapheme_Base # Lo       TELUGU SIGN AVAGRAHA",
text! "0C41..0C44    ; Grapheme_Base # Mc   [4] TELUGU VOWEL SIGN U..TELUGU VOWEL SIGN VOCALIC RR",
text! "0C58..0C5A    ; Grapheme_Base # Lo   [3] TELUGU LETTER TSA..TELUGU LETTER RRRA",
text! "0C5C..0C5D    ; Grapheme_Base # Lo   [2] TELUGU ARCHAIC SHRII..TELUGU LETTER NAKAARA POLLU",
text! "0C60..0C61    ; Grapheme_Base # Lo   [2] TELUGU LETTER VOCALIC RR..TELUGU LETTER VOCALIC LL"]

/-- lines 11457-11520 -/
def derivedCore179 : List Nat := [
text! "0C66..0C6F    ; Grapheme_Base # Nd  [10] TELUGU DIGIT ZERO..TELUGU DIGIT NINE",
text! "0C77          ; Grapheme_Base # Po       TELUGU SIGN SIDDHAM",
text! "0C78..0C7E    ; Grapheme_Base # No   [7] TELUGU FRACTION DIGIT ZERO FOR ODD POWERS OF FOUR..TELUGU FRACTION DIGIT THREE FOR EVEN POWERS OF FOUR",
text! "0C7F          ; Grapheme_Base # So       TELUGU SIGN TUUMU",
text! "0C80          ; Grapheme_Base # Lo       KANNADA SIGN SPACING CANDRABINDU",
text! "0C82..0C83    ; Grapheme_Base # Mc   [2] KANNADA SIGN ANUSVARA..KANNADA SIGN VISARGA",
text! "0C84          ; Grapheme_Base # Po       KANNADA SIGN SIDDHAM",
text! "0C85..0C8C    ; Grapheme_Base # Lo   [8] KANNADA LETTER A..KANNADA LETTER VOCALIC L",
text! "0C8E..0C90    ; Grapheme_Base # Lo   [3] KANNADA LETTER E..KANNADA LETTER AI",
text! "0C92..0CA8    ; Grapheme_Base # Lo  [23] KANNADA LETTER O..KANNADA LETTER NA",
text! "0CAA..0CB3    ; Grapheme_Base # Lo  [10] KANNADA LETTER PA..KANNADA LETTER LLA",
text! "0CB5..0CB9    ; Grapheme_Base # Lo   [5] KANNADA LETTER VA..KANNADA LETTER HA",
text! "0CBD          ; Grapheme_Base # Lo       KANNADA SIGN AVAGRAHA",
text! "0CBE          ; Grapheme_Base # Mc       KANNADA VOWEL SIGN AA",
text! "0CC1          ; Grapheme_Base # Mc       KANNADA VOWEL SIGN U",
text! "0CC3..0CC4    ; Grapheme_Base # Mc   [2] KANNADA VOWEL SIGN VOCALIC R..KANNADA VOWEL SIGN VOCALIC RR",
text! "0CDC..0CDE    ; Grapheme_Base # Lo   [3] KANNADA ARCHAIC SHRII..KANNADA LETTER FA",
text! "0CE0..0CE1    ; Grapheme_Base # Lo   [2] KANNADA LETTER VOCALIC RR..KANNADA LETTER VOCALIC LL",
text! "0CE6..0CEF    ; Grapheme_Base # Nd  [10] KANNADA DIGIT ZERO..KANNADA DIGIT NINE",
text! "0CF1..0CF2    ; Grapheme_Base # Lo   [2] KANNADA SIGN JIHVAMULIYA..KANNADA SIGN UPADHMANIYA",
text! "0CF3          ; Grapheme_Base # Mc       KANNADA SIGN COMBINING ANUSVARA ABOVE RIGHT",
text! "0D02..0D03    ; Grapheme_Base # Mc   [2] MALAYALAM SIGN ANUSVARA..MALAYALAM SIGN VISARGA",
text! "0D04..0D0C    ; Grapheme_Base # Lo   [9] MALAYALAM LETTER VEDIC ANUSVARA..MALAYALAM LETTER VOCALIC L",
text! "0D0E..0D10    ; Grapheme_Base # Lo   [3] MALAYALAM LETTER E..MALAYALAM LETTER AI",
text! "0D12..0D3A    ; Grapheme_Base # Lo  [41] MALAYALAM LETTER O..MALAYALAM LETTER TTTA",
text! "0D3D          ; Grapheme_Base # Lo       MALAYALAM SIGN AVAGRAHA",
text! "0D3F..0D40    ; Grapheme_Base # Mc   [2] MALAYALAM VOWEL SIGN I..MALAYALAM VOWEL SIGN II",
text! "0D46..0D48    ; Grapheme_Base # Mc   [3] MALAYALAM VOWEL SIGN E..MALAYALAM VOWEL SIGN AI",
text! "0D4A..0D4C    ; Grapheme_Base # Mc   [3] MALAYALAM VOWEL SIGN O..MALAYALAM VOWEL SIGN AU",
text! "0D4E          ; Grapheme_Base # Lo       MALAYALAM LETTER DOT REPH",
text! "0D4F          ; Grapheme_Base # So       MALAYALAM SIGN PARA",
text! "0D54..0D56    ; Grapheme_Base # Lo   [3] MALAYALAM LETTER CHILLU M..MALAYALAM LETTER CHILLU LLL",
text! "0D58..0D5E    ; Grapheme_Base # No   [7] MALAYALAM FRACTION ONE ONE-HUNDRED-AND-SIXTIETH..MALAYALAM FRACTION ONE FIFTH",
text! "0D5F..0D61    ; Grapheme_Base # Lo   [3] MALAYALAM LETTER ARCHAIC II..MALAYALAM LETTER VOCALIC LL",
text! "0D66..0D6F    ; Grapheme_Base # Nd  [10] MALAYALAM DIGIT ZERO..MALAYALAM DIGIT NINE",
text! "0D70..0D78    ; Grapheme_Base # No   [9] MALAYALAM NUMBER TEN..MALAYALAM FRACTION THREE SIXTEENTHS",
text! "0D79          ; Grapheme_Base # So       MALAYALAM DATE MARK",
text! "0D7A..0D7F    ; Grapheme_Base # Lo   [6] MALAYALAM LETTER CHILLU NN..MALAYALAM LETTER CHILLU K",
text! "0D82..0D83    ; Grapheme_Base # Mc   [2] SINHALA SIGN ANUSVARAYA..SINHALA SIGN VISARGAYA",
text! "0D85..0D96    ; Grapheme_Base # Lo  [18] SINHALA LETTER AYANNA..SINHALA LETTER AUYANNA",
text! "0D9A..0DB1    ; Grapheme_Base # Lo  [24] SINHALA LETTER ALPAPRAANA KAYANNA..SINHALA LETTER DANTAJA NAYANNA",
text! "0DB3..0DBB    ; Grapheme_Base # Lo   [9] SINHALA LETTER SANYAKA DAYANNA..SINHALA LETTER RAYANNA",
text! "0DBD          ; Grapheme_Base # Lo       SINHALA LETTER DANTAJA LAYANNA",
text! "0DC0..0DC6    ; Grapheme_Base # Lo   [7] SINHALA LETTER VAYANNA..SINHALA LETTER FAYANNA",
text! "0DD0..0DD1    ; Grapheme_Base # Mc   [2] SINHALA VOWEL SIGN KETTI AEDA-PILLA..SINHALA VOWEL SIGN DIGA AEDA-PILLA",
text! "0DD8..0DDE    ; Grapheme_Base # Mc   [7] SINHALA VOWEL SIGN GAETTA-PILLA..SINHALA VOWEL SIGN KOMBUVA HAA GAYANUKITTA",
text! "0DE6..0DEF    ; Grapheme_Base # Nd  [10] SINHALA LITH DIGIT ZERO..SINHALA LITH DIGIT NINE",
text! "0DF2..0DF3    ; Grapheme_Base # Mc   [2] SINHALA VOWEL SIGN DIGA GAETTA-PILLA..SINHALA VOWEL SIGN DIGA GAYANUKITTA",
text! "0DF4          ; Grapheme_Base # Po       SINHALA PUNCTUATION KUNDDALIYA",
text! "0E01..0E30    ; Grapheme_Base # Lo  [48] THAI CHARACTER KO KAI..THAI CHARACTER SARA A",
text! "0E32..0E33    ; Grapheme_Base # Lo   [2] THAI CHARACTER SARA AA..THAI CHARACTER SARA AM",
text! "0E3F          ; Grapheme_Base # Sc       THAI CURRENCY SYMBOL BAHT",
text! "0E40..0E45    ; Grapheme_Base # Lo   [6] THAI CHARACTER SARA E..THAI CHARACTER LAKKHANGYAO",
text! "0E46          ; Grapheme_Base # Lm       THAI CHARACTER MAIYAMOK",
text! "0E4F          ; Grapheme_Base # Po       THAI CHARACTER FONGMAN",
text! "0E50..0E59    ; Grapheme_Base # Nd  [10] THAI DIGIT ZERO..THAI DIGIT NINE",
text! "0E5A..0E5B    ; Grapheme_Base # Po   [2] THAI CHARACTER ANGKHANKHU..THAI CHARACTER KHOMUT",
text! "0E81..0E82    ; Grapheme_Base # Lo   [2] LAO LETTER KO..LAO LETTER KHO SUNG",
text! "0E84          ; Grapheme_Base # Lo       LAO LETTER KHO TAM",
text! "0E86..0E8A    ; Grapheme_Base # Lo   [5] LAO LETTER PALI GHA..LAO LETTER SO TAM",
text! "0E8C..0EA3    ; Grapheme_Base # Lo  [24] LAO LETTER PALI JHA..LAO LETTER LO LING",
text! "0EA5          ; Grapheme_Base # Lo       LAO LETTER LO LOOT",
text! "0EA7..0EB0    ; Grapheme_Base # Lo  [10] LAO LETTER WO..LAO VOWEL SIGN A",
text! "0EB2..0EB3    ; Grapheme_Base # Lo   [2] LAO VOWEL SIGN AA..LAO VOWEL SIGN AM"]

/-- lines 11521-11584 -/
def derivedCore180 : List Nat := [
text! "0EBD          ; Grapheme_Base # Lo       LAO SEMIVOWEL SIGN NYO",
text! "0EC0..0EC4    ; Grapheme_Base # Lo   [5] LAO VOWEL SIGN E..LAO VOWEL SIGN AI",
text! "0EC6          ; Grapheme_Base # Lm       LAO KO LA",
text! "0ED0..0ED9    ; Grapheme_Base # Nd  [10] LAO DIGIT ZERO..LAO DIGIT NINE",
text! "0EDC..0EDF    ; Grapheme_Base # Lo   [4] LAO HO NO..LAO LETTER KHMU NYO",
text! "0F00          ; Grapheme_Base # Lo       TIBETAN SYLLABLE OM",
text! "0F01..0F03    ; Grapheme_Base # So   [3] TIBETAN MARK GTER YIG MGO TRUNCATED A..TIBETAN MARK GTER YIG MGO -UM GTER TSHEG MA",
text! "0F04..0F12    ; Grapheme_Base # Po  [15] TIBETAN MARK INITIAL YIG MGO MDUN MA..TIBETAN MARK RGYA GRAM SHAD",
text! "0F13          ; Grapheme_Base # So       TIBETAN MARK CARET -DZUD RTAGS ME LONG CAN",
text! "0F14          ; Grapheme_Base # Po       TIBETAN MARK GTER TSHEG",
text! "0F15..0F17    ; Grapheme_Base # So   [3] TIBETAN LOGOTYPE SIGN CHAD RTAGS..TIBETAN ASTROLOGICAL SIGN SGRA GCAN -CHAR RTAGS",
text! "0F1A..0F1F    ; Grapheme_Base # So   [6] TIBETAN SIGN RDEL DKAR GCIG..TIBETAN SIGN RDEL DKAR RDEL NAG",
text! "0F20..0F29    ; Grapheme_Base # Nd  [10] TIBETAN DIGIT ZERO..TIBETAN DIGIT NINE",
text! "0F2A..0F33    ; Grapheme_Base # No  [10] TIBETAN DIGIT HALF ONE..TIBETAN DIGIT HALF ZERO",
text! "0F34          ; Grapheme_Base # So       TIBETAN MARK BSDUS RTAGS",
text! "0F36          ; Grapheme_Base # So       TIBETAN MARK CARET -DZUD RTAGS BZHI MIG CAN",
text! "0F38          ; Grapheme_Base # So       TIBETAN MARK CHE MGO",
text! "0F3A          ; Grapheme_Base # Ps       TIBETAN MARK GUG RTAGS GYON",
text! "0F3B          ; Grapheme_Base # Pe       TIBETAN MARK GUG RTAGS GYAS",
text! "0F3C          ; Grapheme_Base # Ps       TIBETAN MARK ANG KHANG GYON",
text! "0F3D          ; Grapheme_Base # Pe       TIBETAN MARK ANG KHANG GYAS",
text! "0F3E..0F3F    ; Grapheme_Base # Mc   [2] TIBETAN SIGN YAR TSHES..TIBETAN SIGN MAR TSHES",
text! "0F40..0F47    ; Grapheme_Base # Lo   [8] TIBETAN LETTER KA..TIBETAN LETTER JA",
text! "0F49..0F6C    ; Grapheme_Base # Lo  [36] TIBETAN LETTER NYA..TIBETAN LETTER RRA",
text! "0F7F          ; Grapheme_Base # Mc       TIBETAN SIGN RNAM BCAD",
text! "0F85          ; Grapheme_Base # Po       TIBETAN MARK PALUTA",
text! "0F88..0F8C    ; Grapheme_Base # Lo   [5] TIBETAN SIGN LCE TSA CAN..TIBETAN SIGN INVERTED MCHU CAN",
text! "0FBE..0FC5    ; Grapheme_Base # So   [8] TIBETAN KU RU KHA..TIBETAN SYMBOL RDO RJE",
text! "0FC7..0FCC    ; Grapheme_Base # So   [6] TIBETAN SYMBOL RDO RJE RGYA GRAM..TIBETAN SYMBOL NOR BU BZHI -KHYIL",
text! "0FCE..0FCF    ; Grapheme_Base # So   [2] TIBETAN SIGN RDEL NAG RDEL DKAR..TIBETAN SIGN RDEL NAG GSUM",
text! "0FD0..0FD4    ; Grapheme_Base # Po   [5] TIBETAN MARK BSKA- SHOG GI MGO RGYAN..TIBETAN MARK CLOSING BRDA RNYING YIG MGO SGAB MA",
text! "0FD5..0FD8    ; Grapheme_Base # So   [4] RIGHT-FACING SVASTI SIGN..LEFT-FACING SVASTI SIGN WITH DOTS",
text! "0FD9..0FDA    ; Grapheme_Base # Po   [2] TIBETAN MARK LEADING MCHAN RTAGS..TIBETAN MARK TRAILING MCHAN RTAGS",
text! "1000..102A    ; Grapheme_Base # Lo  [43] MYANMAR LETTER KA..MYANMAR LETTER AU",
text! "102B..102C    ; Grapheme_Base # Mc   [2] MYANMAR VOWEL SIGN TALL AA..MYANMAR VOWEL SIGN AA",
text! "1031          ; Grapheme_Base # Mc       MYANMAR VOWEL SIGN E",
text! "1038          ; Grapheme_Base # Mc       MYANMAR SIGN VISARGA",
text! "103B..103C    ; Grapheme_Base # Mc   [2] MYANMAR CONSONANT SIGN MEDIAL YA..MYANMAR CONSONANT SIGN MEDIAL RA",
text! "103F          ; Grapheme_Base # Lo       MYANMAR LETTER GREAT SA",
text! "1040..1049    ; Grapheme_Base # Nd  [10] MYANMAR DIGIT ZERO..MYANMAR DIGIT NINE",
text! "104A..104F    ; Grapheme_Base # Po   [6] MYANMAR SIGN LITTLE SECTION..MYANMAR SYMBOL GENITIVE",
text! "1050..1055    ; Grapheme_Base # Lo   [6] MYANMAR LETTER SHA..MYANMAR LETTER VOCALIC LL",
text! "1056..1057    ; Grapheme_Base # Mc   [2] MYANMAR VOWEL SIGN VOCALIC R..MYANMAR VOWEL SIGN VOCALIC RR",
text! "105A..105D    ; Grapheme_Base # Lo   [4] MYANMAR LETTER MON NGA..MYANMAR LETTER MON BBE",
text! "1061          ; Grapheme_Base # Lo       MYANMAR LETTER SGAW KAREN SHA",
text! "1062..1064    ; Grapheme_Base # Mc   [3] MYANMAR VOWEL SIGN SGAW KAREN EU..MYANMAR TONE MARK SGAW KAREN KE PHO",
text! "1065..1066    ; Grapheme_Base # Lo   [2] MYANMAR LETTER WESTERN PWO KAREN THA..MYANMAR LETTER WESTERN PWO KAREN PWA",
text! "1067..106D    ; Grapheme_Base # Mc   [7] MYANMAR VOWEL SIGN WESTERN PWO KAREN EU..MYANMAR SIGN WESTERN PWO KAREN TONE-5",
text! "106E..1070    ; Grapheme_Base # Lo   [3] MYANMAR LETTER EASTERN PWO KAREN NNA..MYANMAR LETTER EASTERN PWO KAREN GHWA",
text! "1075..1081    ; Grapheme_Base # Lo  [13] MYANMAR LETTER SHAN KA..MYANMAR LETTER SHAN HA",
text! "1083..1084    ; Grapheme_Base # Mc   [2] MYANMAR VOWEL SIGN SHAN AA..MYANMAR VOWEL SIGN SHAN E",
text! "1087..108C    ; Grapheme_Base # Mc   [6] MYANMAR SIGN SHAN TONE-2..MYANMAR SIGN SHAN COUNCIL TONE-3",
text! "108E          ; Grapheme_Base # Lo       MYANMAR LETTER RUMAI PALAUNG FA",
text! "108F          ; Grapheme_Base # Mc       MYANMAR SIGN RUMAI PALAUNG TONE-5",
text! "1090..1099    ; Grapheme_Base # Nd  [10] MYANMAR SHAN DIGIT ZERO..MYANMAR SHAN DIGIT NINE",
text! "109A..109C    ; Grapheme_Base # Mc   [3] MYANMAR SIGN KHAMTI TONE-1..MYANMAR VOWEL SIGN AITON A",
text! "109E..109F    ; Grapheme_Base # So   [2] MYANMAR SYMBOL SHAN ONE..MYANMAR SYMBOL SHAN EXCLAMATION",
text! "10A0..10C5    ; Grapheme_Base # L&  [38] GEORGIAN CAPITAL LETTER AN..GEORGIAN CAPITAL LETTER HOE",
text! "10C7          ; Grapheme_Base # L&       GEORGIAN CAPITAL LETTER YN",
text! "10CD          ; Grapheme_Base # L&       GEORGIAN CAPITAL LETTER AEN",
text! "10D0..10FA    ; Grapheme_Base # L&  [43] GEORGIAN LETTER AN..GEORGIAN LETTER AIN",
text! "10FB          ; Grapheme_Base # Po       GEORGIAN PARAGRAPH SEPARATOR",
text! "10FC          ; Grapheme_Base # Lm       MODIFIER LETTER GEORGIAN NAR",
text! "10FD..10FF    ; Grapheme_Base # L&   [3] GEORGIAN LETTER AEN..GEORGIAN LETTER LABIAL SIGN"]

/-- lines 11585-11648 -/
def derivedCore181 : List Nat := [
text! "1100..1248    ; Grapheme_Base # Lo [329] HANGUL CHOSEONG KIYEOK..ETHIOPIC SYLLABLE QWA",
text! "124A..124D    ; Grapheme_Base # Lo   [4] ETHIOPIC SYLLABLE QWI..ETHIOPIC SYLLABLE QWE",
text! "1250..1256    ; Grapheme_Base # Lo   [7] ETHIOPIC SYLLABLE QHA..ETHIOPIC SYLLABLE QHO",
text! "1258          ; Grapheme_Base # Lo       ETHIOPIC SYLLABLE QHWA",
text! "125A..125D    ; Grapheme_Base # Lo   [4] ETHIOPIC SYLLABLE QHWI..ETHIOPIC SYLLABLE QHWE",
text! "1260..1288    ; Grapheme_Base # Lo  [41] ETHIOPIC SYLLABLE BA..ETHIOPIC SYLLABLE XWA",
text! "128A..128D    ; Grapheme_Base # Lo   [4] ETHIOPIC SYLLABLE XWI..ETHIOPIC SYLLABLE XWE",
text! "1290..12B0    ; Grapheme_Base # Lo  [33] ETHIOPIC SYLLABLE NA..ETHIOPIC SYLLABLE KWA",
text! "12B2..12B5    ; Grapheme_Base # Lo   [4] ETHIOPIC SYLLABLE KWI..ETHIOPIC SYLLABLE KWE",
text! "12B8..12BE    ; Grapheme_Base # Lo   [7] ETHIOPIC SYLLABLE KXA..ETHIOPIC SYLLABLE KXO",
text! "12C0          ; Grapheme_Base # Lo       ETHIOPIC SYLLABLE KXWA",
text! "12C2..12C5    ; Grapheme_Base # Lo   [4] ETHIOPIC SYLLABLE KXWI..ETHIOPIC SYLLABLE KXWE",
text! "12C8..12D6    ; Grapheme_Base # Lo  [15] ETHIOPIC SYLLABLE WA..ETHIOPIC SYLLABLE PHARYNGEAL O",
text! "12D8..1310    ; Grapheme_Base # Lo  [57] ETHIOPIC SYLLABLE ZA..ETHIOPIC SYLLABLE GWA",
text! "1312..1315    ; Grapheme_Base # Lo   [4] ETHIOPIC SYLLABLE GWI..ETHIOPIC SYLLABLE GWE",
text! "1318..135A    ; Grapheme_Base # Lo  [67] ETHIOPIC SYLLABLE GGA..ETHIOPIC SYLLABLE FYA",
text! "1360..1368    ; Grapheme_Base # Po   [9] ETHIOPIC SECTION MARK..ETHIOPIC PARAGRAPH SEPARATOR",
text! "1369..137C    ; Grapheme_Base # No  [20] ETHIOPIC DIGIT ONE..ETHIOPIC NUMBER TEN THOUSAND",
text! "1380..138F    ; Grapheme_Base # Lo  [16] ETHIOPIC SYLLABLE SEBATBEIT MWA..ETHIOPIC SYLLABLE PWE",
text! "1390..1399    ; Grapheme_Base # So  [10] ETHIOPIC TONAL MARK YIZET..ETHIOPIC TONAL MARK KURT",
text! "13A0..13F5    ; Grapheme_Base # L&  [86] CHEROKEE LETTER A..CHEROKEE LETTER MV",
text! "13F8..13FD    ; Grapheme_Base # L&   [6] CHEROKEE SMALL LETTER YE..CHEROKEE SMALL LETTER MV",
text! "1400          ; Grapheme_Base # Pd       CANADIAN SYLLABICS HYPHEN",
text! "1401..166C    ; Grapheme_Base # Lo [620] CANADIAN SYLLABICS E..CANADIAN SYLLABICS CARRIER TTSA",
text! "166D          ; Grapheme_Base # So       CANADIAN SYLLABICS CHI SIGN",
text! "166E          ; Grapheme_Base # Po       CANADIAN SYLLABICS FULL STOP",
text! "166F..167F    ; Grapheme_Base # Lo  [17] CANADIAN SYLLABICS QAI..CANADIAN SYLLABICS BLACKFOOT W",
text! "1680          ; Grapheme_Base # Zs       OGHAM SPACE MARK",
text! "1681..169A    ; Grapheme_Base # Lo  [26] OGHAM LETTER BEITH..OGHAM LETTER PEITH",
text! "169B          ; Grapheme_Base # Ps       OGHAM FEATHER MARK",
text! "169C          ; Grapheme_Base # Pe       OGHAM REVERSED FEATHER MARK",
text! "16A0..16EA    ; Grapheme_Base # Lo  [75] RUNIC LETTER FEHU FEOH FE F..RUNIC LETTER X",
text! "16EB..16ED    ; Grapheme_Base # Po   [3] RUNIC SINGLE PUNCTUATION..RUNIC CROSS PUNCTUATION",
text! "16EE..16F0    ; Grapheme_Base # Nl   [3] RUNIC ARLAUG SYMBOL..RUNIC BELGTHOR SYMBOL",
text! "16F1..16F8    ; Grapheme_Base # Lo   [8] RUNIC LETTER K..RUNIC LETTER FRANKS CASKET AESC",
text! "1700..1711    ; Grapheme_Base # Lo  [18] TAGALOG LETTER A..TAGALOG LETTER HA",
text! "171F..1731    ; Grapheme_Base # Lo  [19] TAGALOG LETTER ARCHAIC RA..HANUNOO LETTER HA",
text! "1735..1736    ; Grapheme_Base # Po   [2] PHILIPPINE SINGLE PUNCTUATION..PHILIPPINE DOUBLE PUNCTUATION",
text! "1740..1751    ; Grapheme_Base # Lo  [18] BUHID LETTER A..BUHID LETTER HA",
text! "1760..176C    ; Grapheme_Base # Lo  [13] TAGBANWA LETTER A..TAGBANWA LETTER YA",
text! "176E..1770    ; Grapheme_Base # Lo   [3] TAGBANWA LETTER LA..TAGBANWA LETTER SA",
text! "1780..17B3    ; Grapheme_Base # Lo  [52] KHMER LETTER KA..KHMER INDEPENDENT VOWEL QAU",
text! "17B6          ; Grapheme_Base # Mc       KHMER VOWEL SIGN AA",
text! "17BE..17C5    ; Grapheme_Base # Mc   [8] KHMER VOWEL SIGN OE..KHMER VOWEL SIGN AU",
text! "17C7..17C8    ; Grapheme_Base # Mc   [2] KHMER SIGN REAHMUK..KHMER SIGN YUUKALEAPINTU",
text! "17D4..17D6    ; Grapheme_Base # Po   [3] KHMER SIGN KHAN..KHMER SIGN CAMNUC PII KUUH",
text! "17D7          ; Grapheme_Base # Lm       KHMER SIGN LEK TOO",
text! "17D8..17DA    ; Grapheme_Base # Po   [3] KHMER SIGN BEYYAL..KHMER SIGN KOOMUUT",
text! "17DB          ; Grapheme_Base # Sc       KHMER CURRENCY SYMBOL RIEL",
text! "17DC          ; Grapheme_Base # Lo       KHMER SIGN AVAKRAHASANYA",
text! "17E0..17E9    ; Grapheme_Base # Nd  [10] KHMER DIGIT ZERO..KHMER DIGIT NINE",
text! "17F0..17F9    ; Grapheme_Base # No  [10] KHMER SYMBOL LEK ATTAK SON..KHMER SYMBOL LEK ATTAK PRAM-BUON",
text! "1800..1805    ; Grapheme_Base # Po   [6] MONGOLIAN BIRGA..MONGOLIAN FOUR DOTS",
text! "1806          ; Grapheme_Base # Pd       MONGOLIAN TODO SOFT HYPHEN",
text! "1807..180A    ; Grapheme_Base # Po   [4] MONGOLIAN SIBE SYLLABLE BOUNDARY MARKER..MONGOLIAN NIRUGU",
text! "1810..1819    ; Grapheme_Base # Nd  [10] MONGOLIAN DIGIT ZERO..MONGOLIAN DIGIT NINE",
text! "1820..1842    ; Grapheme_Base # Lo  [35] MONGOLIAN LETTER A..MONGOLIAN LETTER CHI",
text! "1843          ; Grapheme_Base # Lm       MONGOLIAN LETTER TODO LONG VOWEL SIGN",
text! "1844..1878    ; Grapheme_Base # Lo  [53] MONGOLIAN LETTER TODO E..MONGOLIAN LETTER CHA WITH TWO DOTS",
text! "1880..1884    ; Grapheme_Base # Lo   [5] MONGOLIAN LETTER ALI GALI ANUSVARA ONE..MONGOLIAN LETTER ALI GALI INVERTED UBADAMA",
text! "1887..18A8    ; Grapheme_Base # Lo  [34] MONGOLIAN LETTER ALI GALI A..MONGOLIAN LETTER MANCHU ALI GALI BHA",
text! "18AA          ; Grapheme_Base # Lo       MONGOLIAN LETTER MANCHU ALI GALI LHA",
text! "18B0..18F5    ; Grapheme_Base # Lo  [70] CANADIAN SYLLABICS OY..CANADIAN SYLLABICS CARRIER DENTAL S",
text! "1900..191E    ; Grapheme_Base # Lo  [31] LIMBU VOWEL-CARRIER LETTER..LIMBU LETTER TRA"]

/-- lines 11649-11712 -/
def derivedCore182 : List Nat := [
text! "1923..1926    ; Grapheme_Base # Mc   [4] LIMBU VOWEL SIGN EE..LIMBU VOWEL SIGN AU",
text! "1929..192B    ; Grapheme_Base # Mc   [3] LIMBU SUBJOINED LETTER YA..LIMBU SUBJOINED LETTER WA",
text! "1930..1931    ; Grapheme_Base # Mc   [2] LIMBU SMALL LETTER KA..LIMBU SMALL LETTER NGA",
text! "1933..1938    ; Grapheme_Base # Mc   [6] LIMBU SMALL LETTER TA..LIMBU SMALL LETTER LA",
text! "1940          ; Grapheme_Base # So       LIMBU SIGN LOO",
text! "1944..1945    ; Grapheme_Base # Po   [2] LIMBU EXCLAMATION MARK..LIMBU QUESTION MARK",
text! "1946..194F    ; Grapheme_Base # Nd  [10] LIMBU DIGIT ZERO..LIMBU DIGIT NINE",
text! "1950..196D    ; Grapheme_Base # Lo  [30] TAI LE LETTER KA..TAI LE LETTER AI",
text! "1970..1974    ; Grapheme_Base # Lo   [5] TAI LE LETTER TONE-2..TAI LE LETTER TONE-6",
text! "1980..19AB    ; Grapheme_Base # Lo  [44] NEW TAI LUE LETTER HIGH QA..NEW TAI LUE LETTER LOW SUA",
text! "19B0..19C9    ; Grapheme_Base # Lo  [26] NEW TAI LUE VOWEL SIGN VOWEL SHORTENER..NEW TAI LUE TONE MARK-2",
text! "19D0..19D9    ; Grapheme_Base # Nd  [10] NEW TAI LUE DIGIT ZERO..NEW TAI LUE DIGIT NINE",
text! "19DA          ; Grapheme_Base # No       NEW TAI LUE THAM DIGIT ONE",
text! "19DE..19FF    ; Grapheme_Base # So  [34] NEW TAI LUE SIGN LAE..KHMER SYMBOL DAP-PRAM ROC",
text! "1A00..1A16    ; Grapheme_Base # Lo  [23] BUGINESE LETTER KA..BUGINESE LETTER HA",
text! "1A19..1A1A    ; Grapheme_Base # Mc   [2] BUGINESE VOWEL SIGN E..BUGINESE VOWEL SIGN O",
text! "1A1E..1A1F    ; Grapheme_Base # Po   [2] BUGINESE PALLAWA..BUGINESE END OF SECTION",
text! "1A20..1A54    ; Grapheme_Base # Lo  [53] TAI THAM LETTER HIGH KA..TAI THAM LETTER GREAT SA",
text! "1A55          ; Grapheme_Base # Mc       TAI THAM CONSONANT SIGN MEDIAL RA",
text! "1A57          ; Grapheme_Base # Mc       TAI THAM CONSONANT SIGN LA TANG LAI",
text! "1A61          ; Grapheme_Base # Mc       TAI THAM VOWEL SIGN A",
text! "1A63..1A64    ; Grapheme_Base # Mc   [2] TAI THAM VOWEL SIGN AA..TAI THAM VOWEL SIGN TALL AA",
text! "1A6D..1A72    ; Grapheme_Base # Mc   [6] TAI THAM VOWEL SIGN OY..TAI THAM VOWEL SIGN THAM AI",
text! "1A80..1A89    ; Grapheme_Base # Nd  [10] TAI THAM HORA DIGIT ZERO..TAI THAM HORA DIGIT NINE",
text! "1A90..1A99    ; Grapheme_Base # Nd  [10] TAI THAM THAM DIGIT ZERO..TAI THAM THAM DIGIT NINE",
text! "1AA0..1AA6    ; Grapheme_Base # Po   [7] TAI THAM SIGN WIANG..TAI THAM SIGN REVERSED ROTATED RANA",
text! "1AA7          ; Grapheme_Base # Lm       TAI THAM SIGN MAI YAMOK",
text! "1AA8..1AAD    ; Grapheme_Base # Po   [6] TAI THAM SIGN KAAN..TAI THAM SIGN CAANG",
text! "1B04          ; Grapheme_Base # Mc       BALINESE SIGN BISAH",
text! "1B05..1B33    ; Grapheme_Base # Lo  [47] BALINESE LETTER AKARA..BALINESE LETTER HA",
text! "1B3E..1B41    ; Grapheme_Base # Mc   [4] BALINESE VOWEL SIGN TALING..BALINESE VOWEL SIGN TALING REPA TEDUNG",
text! "1B45..1B4C    ; Grapheme_Base # Lo   [8] BALINESE LETTER KAF SASAK..BALINESE LETTER ARCHAIC JNYA",
text! "1B4E..1B4F    ; Grapheme_Base # Po   [2] BALINESE INVERTED CARIK SIKI..BALINESE INVERTED CARIK PAREREN",
text! "1B50..1B59    ; Grapheme_Base # Nd  [10] BALINESE DIGIT ZERO..BALINESE DIGIT NINE",
text! "1B5A..1B60    ; Grapheme_Base # Po   [7] BALINESE PANTI..BALINESE PAMENENG",
text! "1B61..1B6A    ; Grapheme_Base # So  [10] BALINESE MUSICAL SYMBOL DONG..BALINESE MUSICAL SYMBOL DANG GEDE",
text! "1B74..1B7C    ; Grapheme_Base # So   [9] BALINESE MUSICAL SYMBOL RIGHT-HAND OPEN DUG..BALINESE MUSICAL SYMBOL LEFT-HAND OPEN PING",
text! "1B7D..1B7F    ; Grapheme_Base # Po   [3] BALINESE PANTI LANTANG..BALINESE PANTI BAWAK",
text! "1B82          ; Grapheme_Base # Mc       SUNDANESE SIGN PANGWISAD",
text! "1B83..1BA0    ; Grapheme_Base # Lo  [30] SUNDANESE LETTER A..SUNDANESE LETTER HA",
text! "1BA1          ; Grapheme_Base # Mc       SUNDANESE CONSONANT SIGN PAMINGKAL",
text! "1BA6..1BA7    ; Grapheme_Base # Mc   [2] SUNDANESE VOWEL SIGN PANAELAENG..SUNDANESE VOWEL SIGN PANOLONG",
text! "1BAE..1BAF    ; Grapheme_Base # Lo   [2] SUNDANESE LETTER KHA..SUNDANESE LETTER SYA",
text! "1BB0..1BB9    ; Grapheme_Base # Nd  [10] SUNDANESE DIGIT ZERO..SUNDANESE DIGIT NINE",
text! "1BBA..1BE5    ; Grapheme_Base # Lo  [44] SUNDANESE AVAGRAHA..BATAK LETTER U",
text! "1BE7          ; Grapheme_Base # Mc       BATAK VOWEL SIGN E",
text! "1BEA..1BEC    ; Grapheme_Base # Mc   [3] BATAK VOWEL SIGN I..BATAK VOWEL SIGN O",
text! "1BEE          ; Grapheme_Base # Mc       BATAK VOWEL SIGN U",
text! "1BFC..1BFF    ; Grapheme_Base # Po   [4] BATAK SYMBOL BINDU NA METEK..BATAK SYMBOL BINDU PANGOLAT",
text! "1C00..1C23    ; Grapheme_Base # Lo  [36] LEPCHA LETTER KA..LEPCHA LETTER A",
text! "1C24..1C2B    ; Grapheme_Base # Mc   [8] LEPCHA SUBJOINED LETTER YA..LEPCHA VOWEL SIGN UU",
text! "1C34..1C35    ; Grapheme_Base # Mc   [2] LEPCHA CONSONANT SIGN NYIN-DO..LEPCHA CONSONANT SIGN KANG",
text! "1C3B..1C3F    ; Grapheme_Base # Po   [5] LEPCHA PUNCTUATION TA-ROL..LEPCHA PUNCTUATION TSHOOK",
text! "1C40..1C49    ; Grapheme_Base # Nd  [10] LEPCHA DIGIT ZERO..LEPCHA DIGIT NINE",
text! "1C4D..1C4F    ; Grapheme_Base # Lo   [3] LEPCHA LETTER TTA..LEPCHA LETTER DDA",
text! "1C50..1C59    ; Grapheme_Base # Nd  [10] OL CHIKI DIGIT ZERO..OL CHIKI DIGIT NINE",
text! "1C5A..1C77    ; Grapheme_Base # Lo  [30] OL CHIKI LETTER LA..OL CHIKI LETTER OH",
text! "1C78..1C7D    ; Grapheme_Base # Lm   [6] OL CHIKI MU TTUDDAG..OL CHIKI AHAD",
text! "1C7E..1C7F    ; Grapheme_Base # Po   [2] OL CHIKI PUNCTUATION MUCAAD..OL CHIKI PUNCTUATION DOUBLE MUCAAD",
text! "1C80..1C8A    ; Grapheme_Base # L&  [11] CYRILLIC SMALL LETTER ROUNDED VE..CYRILLIC SMALL LETTER TJE",
text! "1C90..1CBA    ; Grapheme_Base # L&  [43] GEORGIAN MTAVRULI CAPITAL LETTER AN..GEORGIAN MTAVRULI CAPITAL LETTER AIN",
text! "1CBD..1CBF    ; Grapheme_Base # L&   [3] GEORGIAN MTAVRULI CAPITAL LETTER AEN..GEORGIAN MTAVRULI CAPITAL LETTER LABIAL SIGN",
text! "1CC0..1CC7    ; Grapheme_Base # Po   [8] SUNDANESE PUNCTUATION BINDU SURYA..SUNDANESE PUNCTUATION BINDU BA SATANGA",
text! "1CD3          ; Grapheme_Base # Po       VEDIC SIGN NIHSHVASA"]

/-- lines 11713-11776 -/
def derivedCore183 : List Nat := [
text! "1CE1          ; Grapheme_Base # Mc       VEDIC TONE ATHARVAVEDIC INDEPENDENT SVARITA",
text! "1CE9..1CEC    ; Grapheme_Base # Lo   [4] VEDIC SIGN ANUSVARA ANTARGOMUKHA..VEDIC SIGN ANUSVARA VAMAGOMUKHA WITH TAIL",
text! "1CEE..1CF3    ; Grapheme_Base # Lo   [6] VEDIC SIGN HEXIFORM LONG ANUSVARA..VEDIC SIGN ROTATED ARDHAVISARGA",
text! "1CF5..1CF6    ; Grapheme_Base # Lo   [2] VEDIC SIGN JIHVAMULIYA..VEDIC SIGN UPADHMANIYA",
text! "1CF7          ; Grapheme_Base # Mc       VEDIC SIGN ATIKRAMA",
text! "1CFA          ; Grapheme_Base # Lo       VEDIC SIGN DOUBLE ANUSVARA ANTARGOMUKHA",
text! "1D00..1D2B    ; Grapheme_Base # L&  [44] LATIN LETTER SMALL CAPITAL A..CYRILLIC LETTER SMALL CAPITAL EL",
text! "1D2C..1D6A    ; Grapheme_Base # Lm  [63] MODIFIER LETTER CAPITAL A..GREEK SUBSCRIPT SMALL LETTER CHI",
text! "1D6B..1D77    ; Grapheme_Base # L&  [13] LATIN SMALL LETTER UE..LATIN SMALL LETTER TURNED G",
text! "1D78          ; Grapheme_Base # Lm       MODIFIER LETTER CYRILLIC EN",
text! "1D79..1D9A    ; Grapheme_Base # L&  [34] LATIN SMALL LETTER INSULAR G..LATIN SMALL LETTER EZH WITH RETROFLEX HOOK",
text! "1D9B..1DBF    ; Grapheme_Base # Lm  [37] MODIFIER LETTER SMALL TURNED ALPHA..MODIFIER LETTER SMALL THETA",
text! "1E00..1F15    ; Grapheme_Base # L& [278] LATIN CAPITAL LETTER A WITH RING BELOW..GREEK SMALL LETTER EPSILON WITH DASIA AND OXIA",
text! "1F18..1F1D    ; Grapheme_Base # L&   [6] GREEK CAPITAL LETTER EPSILON WITH PSILI..GREEK CAPITAL LETTER EPSILON WITH DASIA AND OXIA",
text! "1F20..1F45    ; Grapheme_Base # L&  [38] GREEK SMALL LETTER ETA WITH PSILI..GREEK SMALL LETTER OMICRON WITH DASIA AND OXIA",
text! "1F48..1F4D    ; Grapheme_Base # L&   [6] GREEK CAPITAL LETTER OMICRON WITH PSILI..GREEK CAPITAL LETTER OMICRON WITH DASIA AND OXIA",
text! "1F50..1F57    ; Grapheme_Base # L&   [8] GREEK SMALL LETTER UPSILON WITH PSILI..GREEK SMALL LETTER UPSILON WITH DASIA AND PERISPOMENI",
text! "1F59          ; Grapheme_Base # L&       GREEK CAPITAL LETTER UPSILON WITH DASIA",
text! "1F5B          ; Grapheme_Base # L&       GREEK CAPITAL LETTER UPSILON WITH DASIA AND VARIA",
text! "1F5D          ; Grapheme_Base # L&       GREEK CAPITAL LETTER UPSILON WITH DASIA AND OXIA",
text! "1F5F..1F7D    ; Grapheme_Base # L&  [31] GREEK CAPITAL LETTER UPSILON WITH DASIA AND PERISPOMENI..GREEK SMALL LETTER OMEGA WITH OXIA",
text! "1F80..1FB4    ; Grapheme_Base # L&  [53] GREEK SMALL LETTER ALPHA WITH PSILI AND YPOGEGRAMMENI..GREEK SMALL LETTER ALPHA WITH OXIA AND YPOGEGRAMMENI",
text! "1FB6..1FBC    ; Grapheme_Base # L&   [7] GREEK SMALL LETTER ALPHA WITH PERISPOMENI..GREEK CAPITAL LETTER ALPHA WITH PROSGEGRAMMENI",
text! "1FBD          ; Grapheme_Base # Sk       GREEK KORONIS",
text! "1FBE          ; Grapheme_Base # L&       GREEK PROSGEGRAMMENI",
text! "1FBF..1FC1    ; Grapheme_Base # Sk   [3] GREEK PSILI..GREEK DIALYTIKA AND PERISPOMENI",
text! "1FC2..1FC4    ; Grapheme_Base # L&   [3] GREEK SMALL LETTER ETA WITH VARIA AND YPOGEGRAMMENI..GREEK SMALL LETTER ETA WITH OXIA AND YPOGEGRAMMENI",
text! "1FC6..1FCC    ; Grapheme_Base # L&   [7] GREEK SMALL LETTER ETA WITH PERISPOMENI..GREEK CAPITAL LETTER ETA WITH PROSGEGRAMMENI",
text! "1FCD..1FCF    ; Grapheme_Base # Sk   [3] GREEK PSILI AND VARIA..GREEK PSILI AND PERISPOMENI",
text! "1FD0..1FD3    ; Grapheme_Base # L&   [4] GREEK SMALL LETTER IOTA WITH VRACHY..GREEK SMALL LETTER IOTA WITH DIALYTIKA AND OXIA",
text! "1FD6..1FDB    ; Grapheme_Base # L&   [6] GREEK SMALL LETTER IOTA WITH PERISPOMENI..GREEK CAPITAL LETTER IOTA WITH OXIA",
text! "1FDD..1FDF    ; Grapheme_Base # Sk   [3] GREEK DASIA AND VARIA..GREEK DASIA AND PERISPOMENI",
text! "1FE0..1FEC    ; Grapheme_Base # L&  [13] GREEK SMALL LETTER UPSILON WITH VRACHY..GREEK CAPITAL LETTER RHO WITH DASIA",
text! "1FED..1FEF    ; Grapheme_Base # Sk   [3] GREEK DIALYTIKA AND VARIA..GREEK VARIA",
text! "1FF2..1FF4    ; Grapheme_Base # L&   [3] GREEK SMALL LETTER OMEGA WITH VARIA AND YPOGEGRAMMENI..GREEK SMALL LETTER OMEGA WITH OXIA AND YPOGEGRAMMENI",
text! "1FF6..1FFC    ; Grapheme_Base # L&   [7] GREEK SMALL LETTER OMEGA WITH PERISPOMENI..GREEK CAPITAL LETTER OMEGA WITH PROSGEGRAMMENI",
text! "1FFD..1FFE    ; Grapheme_Base # Sk   [2] GREEK OXIA..GREEK DASIA",
text! "2000..200A    ; Grapheme_Base # Zs  [11] EN QUAD..HAIR SPACE",
text! "2010..2015    ; Grapheme_Base # Pd   [6] HYPHEN..HORIZONTAL BAR",
text! "2016..2017    ; Grapheme_Base # Po   [2] DOUBLE VERTICAL LINE..DOUBLE LOW LINE",
text! "2018          ; Grapheme_Base # Pi       LEFT SINGLE QUOTATION MARK",
text! "2019          ; Grapheme_Base # Pf       RIGHT SINGLE QUOTATION MARK",
text! "201A          ; Grapheme_Base # Ps       SINGLE LOW-9 QUOTATION MARK",
text! "201B..201C    ; Grapheme_Base # Pi   [2] SINGLE HIGH-REVERSED-9 QUOTATION MARK..LEFT DOUBLE QUOTATION MARK",
text! "201D          ; Grapheme_Base # Pf       RIGHT DOUBLE QUOTATION MARK",
text! "201E          ; Grapheme_Base # Ps       DOUBLE LOW-9 QUOTATION MARK",
text! "201F          ; Grapheme_Base # Pi       DOUBLE HIGH-REVERSED-9 QUOTATION MARK",
text! "2020..2027    ; Grapheme_Base # Po   [8] DAGGER..HYPHENATION POINT",
text! "202F          ; Grapheme_Base # Zs       NARROW NO-BREAK SPACE",
text! "2030..2038    ; Grapheme_Base # Po   [9] PER MILLE SIGN..CARET",
text! "2039          ; Grapheme_Base # Pi       SINGLE LEFT-POINTING ANGLE QUOTATION MARK",
text! "203A          ; Grapheme_Base # Pf       SINGLE RIGHT-POINTING ANGLE QUOTATION MARK",
text! "203B..203E    ; Grapheme_Base # Po   [4] REFERENCE MARK..OVERLINE",
text! "203F..2040    ; Grapheme_Base # Pc   [2] UNDERTIE..CHARACTER TIE",
text! "2041..2043    ; Grapheme_Base # Po   [3] CARET INSERTION POINT..HYPHEN BULLET",
text! "2044          ; Grapheme_Base # Sm       FRACTION SLASH",
text! "2045          ; Grapheme_Base # Ps       LEFT SQUARE BRACKET WITH QUILL",
text! "2046          ; Grapheme_Base # Pe       RIGHT SQUARE BRACKET WITH QUILL",
text! "2047..2051    ; Grapheme_Base # Po  [11] DOUBLE QUESTION MARK..TWO ASTERISKS ALIGNED VERTICALLY",
text! "2052          ; Grapheme_Base # Sm       COMMERCIAL MINUS SIGN",
text! "2053          ; Grapheme_Base # Po       SWUNG DASH",
text! "2054          ; Grapheme_Base # Pc       INVERTED UNDERTIE",
text! "2055..205E    ; Grapheme_Base # Po  [10] FLOWER PUNCTUATION MARK..VERTICAL FOUR DOTS",
text! "205F          ; Grapheme_Base # Zs       MEDIUM MATHEMATICAL SPACE"]

/-- lines 11777-11840 -/
def derivedCore184 : List Nat := [
text! "2070          ; Grapheme_Base # No       SUPERSCRIPT ZERO",
text! "2071          ; Grapheme_Base # Lm       SUPERSCRIPT LATIN SMALL LETTER I",
text! "2074..2079    ; Grapheme_Base # No   [6] SUPERSCRIPT FOUR..SUPERSCRIPT NINE",
text! "207A..207C    ; Grapheme_Base # Sm   [3] SUPERSCRIPT PLUS SIGN..SUPERSCRIPT EQUALS SIGN",
text! "207D          ; Grapheme_Base # Ps       SUPERSCRIPT LEFT PARENTHESIS",
text! "207E          ; Grapheme_Base # Pe       SUPERSCRIPT RIGHT PARENTHESIS",
text! "207F          ; Grapheme_Base # Lm       SUPERSCRIPT LATIN SMALL LETTER N",
text! "2080..2089    ; Grapheme_Base # No  [10] SUBSCRIPT ZERO..SUBSCRIPT NINE",
text! "208A..208C    ; Grapheme_Base # Sm   [3] SUBSCRIPT PLUS SIGN..SUBSCRIPT EQUALS SIGN",
text! "208D          ; Grapheme_Base # Ps       SUBSCRIPT LEFT PARENTHESIS",
text! "208E          ; Grapheme_Base # Pe       SUBSCRIPT RIGHT PARENTHESIS",
text! "2090..209C    ; Grapheme_Base # Lm  [13] LATIN SUBSCRIPT SMALL LETTER A..LATIN SUBSCRIPT SMALL LETTER T",
text! "20A0..20C1    ; Grapheme_Base # Sc  [34] EURO-CURRENCY SIGN..SAUDI RIYAL SIGN",
text! "2100..2101    ; Grapheme_Base # So   [2] ACCOUNT OF..ADDRESSED TO THE SUBJECT",
text! "2102          ; Grapheme_Base # L&       DOUBLE-STRUCK CAPITAL C",
text! "2103..2106    ; Grapheme_Base # So   [4] DEGREE CELSIUS..CADA UNA",
text! "2107          ; Grapheme_Base # L&       EULER CONSTANT",
text! "2108..2109    ; Grapheme_Base # So   [2] SCRUPLE..DEGREE FAHRENHEIT",
text! "210A..2113    ; Grapheme_Base # L&  [10] SCRIPT SMALL G..SCRIPT SMALL L",
text! "2114          ; Grapheme_Base # So       L B BAR SYMBOL",
text! "2115          ; Grapheme_Base # L&       DOUBLE-STRUCK CAPITAL N",
text! "2116..2117    ; Grapheme_Base # So   [2] NUMERO SIGN..SOUND RECORDING COPYRIGHT",
text! "2118          ; Grapheme_Base # Sm       SCRIPT CAPITAL P",
text! "2119..211D    ; Grapheme_Base # L&   [5] DOUBLE-STRUCK CAPITAL P..DOUBLE-STRUCK CAPITAL R",
text! "211E..2123    ; Grapheme_Base # So   [6] PRESCRIPTION TAKE..VERSICLE",
text! "2124          ; Grapheme_Base # L&       DOUBLE-STRUCK CAPITAL Z",
text! "2125          ; Grapheme_Base # So       OUNCE SIGN",
text! "2126          ; Grapheme_Base # L&       OHM SIGN",
text! "2127          ; Grapheme_Base # So       INVERTED OHM SIGN",
text! "2128          ; Grapheme_Base # L&       BLACK-LETTER CAPITAL Z",
text! "2129          ; Grapheme_Base # So       TURNED GREEK SMALL LETTER IOTA",
text! "212A..212D    ; Grapheme_Base # L&   [4] KELVIN SIGN..BLACK-LETTER CAPITAL C",
text! "212E          ; Grapheme_Base # So       ESTIMATED SYMBOL",
text! "212F..2134    ; Grapheme_Base # L&   [6] SCRIPT SMALL E..SCRIPT SMALL O",
text! "2135..2138    ; Grapheme_Base # Lo   [4] ALEF SYMBOL..DALET SYMBOL",
text! "2139          ; Grapheme_Base # L&       INFORMATION SOURCE",
text! "213A..213B    ; Grapheme_Base # So   [2] ROTATED CAPITAL Q..FACSIMILE SIGN",
text! "213C..213F    ; Grapheme_Base # L&   [4] DOUBLE-STRUCK SMALL PI..DOUBLE-STRUCK CAPITAL PI",
text! "2140..2144    ; Grapheme_Base # Sm   [5] DOUBLE-STRUCK N-ARY SUMMATION..TURNED SANS-SERIF CAPITAL Y",
text! "2145..2149    ; Grapheme_Base # L&   [5] DOUBLE-STRUCK ITALIC CAPITAL D..DOUBLE-STRUCK ITALIC SMALL J",
text! "214A          ; Grapheme_Base # So       PROPERTY LINE",
text! "214B          ; Grapheme_Base # Sm       TURNED AMPERSAND",
text! "214C..214D    ; Grapheme_Base # So   [2] PER SIGN..AKTIESELSKAB",
text! "214E          ; Grapheme_Base # L&       TURNED SMALL F",
text! "214F          ; Grapheme_Base # So       SYMBOL FOR SAMARITAN SOURCE",
text! "2150..215F    ; Grapheme_Base # No  [16] VULGAR FRACTION ONE SEVENTH..FRACTION NUMERATOR ONE",
text! "2160..2182    ; Grapheme_Base # Nl  [35] ROMAN NUMERAL ONE..ROMAN NUMERAL TEN THOUSAND",
text! "2183..2184    ; Grapheme_Base # L&   [2] ROMAN NUMERAL REVERSED ONE HUNDRED..LATIN SMALL LETTER REVERSED C",
text! "2185..2188    ; Grapheme_Base # Nl   [4] ROMAN NUMERAL SIX LATE FORM..ROMAN NUMERAL ONE HUNDRED THOUSAND",
text! "2189          ; Grapheme_Base # No       VULGAR FRACTION ZERO THIRDS",
text! "218A..218B    ; Grapheme_Base # So   [2] TURNED DIGIT TWO..TURNED DIGIT THREE",
text! "2190..2194    ; Grapheme_Base # Sm   [5] LEFTWARDS ARROW..LEFT RIGHT ARROW",
text! "2195..2199    ; Grapheme_Base # So   [5] UP DOWN ARROW..SOUTH WEST ARROW",
text! "219A..219B    ; Grapheme_Base # Sm   [2] LEFTWARDS ARROW WITH STROKE..RIGHTWARDS ARROW WITH STROKE",
text! "219C..219F    ; Grapheme_Base # So   [4] LEFTWARDS WAVE ARROW..UPWARDS TWO HEADED ARROW",
text! "21A0          ; Grapheme_Base # Sm       RIGHTWARDS TWO HEADED ARROW",
text! "21A1..21A2    ; Grapheme_Base # So   [2] DOWNWARDS TWO HEADED ARROW..LEFTWARDS ARROW WITH TAIL",
text! "21A3          ; Grapheme_Base # Sm       RIGHTWARDS ARROW WITH TAIL",
text! "21A4..21A5    ; Grapheme_Base # So   [2] LEFTWARDS ARROW FROM BAR..UPWARDS ARROW FROM BAR",
text! "21A6          ; Grapheme_Base # Sm       RIGHTWARDS ARROW FROM BAR",
text! "21A7..21AD    ; Grapheme_Base # So   [7] DOWNWARDS ARROW FROM BAR..LEFT RIGHT WAVE ARROW",
text! "21AE          ; Grapheme_Base # Sm       LEFT RIGHT ARROW WITH STROKE",
text! "21AF..21CD    ; Grapheme_Base # So  [31] DOWNWARDS ZIGZAG ARROW..LEFTWARDS DOUBLE ARROW WITH STROKE",
text! "21CE..21CF    ; Grapheme_Base # Sm   [2] LEFT RIGHT DOUBLE ARROW WITH STROKE..RIGHTWARDS DOUBLE ARROW WITH STROKE"]

/-- lines 11841-11904 -/
def derivedCore185 : List Nat := [
text! "21D0..21D1    ; Grapheme_Base # So   [2] LEFTWARDS DOUBLE ARROW..UPWARDS DOUBLE ARROW",
text! "21D2          ; Grapheme_Base # Sm       RIGHTWARDS DOUBLE ARROW",
text! "21D3          ; Grapheme_Base # So       DOWNWARDS DOUBLE ARROW",
text! "21D4          ; Grapheme_Base # Sm       LEFT RIGHT DOUBLE ARROW",
text! "21D5..21F3    ; Grapheme_Base # So  [31] UP DOWN DOUBLE ARROW..UP DOWN WHITE ARROW",
text! "21F4..22FF    ; Grapheme_Base # Sm [268] RIGHT ARROW WITH SMALL CIRCLE..Z NOTATION BAG MEMBERSHIP",
text! "2300..2307    ; Grapheme_Base # So   [8] DIAMETER SIGN..WAVY LINE",
text! "2308          ; Grapheme_Base # Ps       LEFT CEILING",
text! "2309          ; Grapheme_Base # Pe       RIGHT CEILING",
text! "230A          ; Grapheme_Base # Ps       LEFT FLOOR",
text! "230B          ; Grapheme_Base # Pe       RIGHT FLOOR",
text! "230C..231F    ; Grapheme_Base # So  [20] BOTTOM RIGHT CROP..BOTTOM RIGHT CORNER",
text! "2320..2321    ; Grapheme_Base # Sm   [2] TOP HALF INTEGRAL..BOTTOM HALF INTEGRAL",
text! "2322..2328    ; Grapheme_Base # So   [7] FROWN..KEYBOARD",
text! "2329          ; Grapheme_Base # Ps       LEFT-POINTING ANGLE BRACKET",
text! "232A          ; Grapheme_Base # Pe       RIGHT-POINTING ANGLE BRACKET",
text! "232B..237B    ; Grapheme_Base # So  [81] ERASE TO THE LEFT..NOT CHECK MARK",
text! "237C          ; Grapheme_Base # Sm       RIGHT ANGLE WITH DOWNWARDS ZIGZAG ARROW",
text! "237D..239A    ; Grapheme_Base # So  [30] SHOULDERED OPEN BOX..CLEAR SCREEN SYMBOL",
text! "239B..23B3    ; Grapheme_Base # Sm  [25] LEFT PARENTHESIS UPPER HOOK..SUMMATION BOTTOM",
text! "23B4..23DB    ; Grapheme_Base # So  [40] TOP SQUARE BRACKET..FUSE",
text! "23DC..23E1    ; Grapheme_Base # Sm   [6] TOP PARENTHESIS..BOTTOM TORTOISE SHELL BRACKET",
text! "23E2..2429    ; Grapheme_Base # So  [72] WHITE TRAPEZIUM..SYMBOL FOR DELETE MEDIUM SHADE FORM",
text! "2440..244A    ; Grapheme_Base # So  [11] OCR HOOK..OCR DOUBLE BACKSLASH",
text! "2460..249B    ; Grapheme_Base # No  [60] CIRCLED DIGIT ONE..NUMBER TWENTY FULL STOP",
text! "249C..24E9    ; Grapheme_Base # So  [78] PARENTHESIZED LATIN SMALL LETTER A..CIRCLED LATIN SMALL LETTER Z",
text! "24EA..24FF    ; Grapheme_Base # No  [22] CIRCLED DIGIT ZERO..NEGATIVE CIRCLED DIGIT ZERO",
text! "2500..25B6    ; Grapheme_Base # So [183] BOX DRAWINGS LIGHT HORIZONTAL..BLACK RIGHT-POINTING TRIANGLE",
text! "25B7          ; Grapheme_Base # Sm       WHITE RIGHT-POINTING TRIANGLE",
text! "25B8..25C0    ; Grapheme_Base # So   [9] BLACK RIGHT-POINTING SMALL TRIANGLE..BLACK LEFT-POINTING TRIANGLE",
text! "25C1          ; Grapheme_Base # Sm       WHITE LEFT-POINTING TRIANGLE",
text! "25C2..25F7    ; Grapheme_Base # So  [54] BLACK LEFT-POINTING SMALL TRIANGLE..WHITE CIRCLE WITH UPPER RIGHT QUADRANT",
text! "25F8..25FF    ; Grapheme_Base # Sm   [8] UPPER LEFT TRIANGLE..LOWER RIGHT TRIANGLE",
text! "2600..266E    ; Grapheme_Base # So [111] BLACK SUN WITH RAYS..MUSIC NATURAL SIGN",
text! "266F          ; Grapheme_Base # Sm       MUSIC SHARP SIGN",
text! "2670..2767    ; Grapheme_Base # So [248] WEST SYRIAC CROSS..ROTATED FLORAL HEART BULLET",
text! "2768          ; Grapheme_Base # Ps       MEDIUM LEFT PARENTHESIS ORNAMENT",
text! "2769          ; Grapheme_Base # Pe       MEDIUM RIGHT PARENTHESIS ORNAMENT",
text! "276A          ; Grapheme_Base # Ps       MEDIUM FLATTENED LEFT PARENTHESIS ORNAMENT",
text! "276B          ; Grapheme_Base # Pe       MEDIUM FLATTENED RIGHT PARENTHESIS ORNAMENT",
text! "276C          ; Grapheme_Base # Ps       MEDIUM LEFT-POINTING ANGLE BRACKET ORNAMENT",
text! "276D          ; Grapheme_Base # Pe       MEDIUM RIGHT-POINTING ANGLE BRACKET ORNAMENT",
text! "276E          ; Grapheme_Base # Ps       HEAVY LEFT-POINTING ANGLE QUOTATION MARK ORNAMENT",
text! "276F          ; Grapheme_Base # Pe       HEAVY RIGHT-POINTING ANGLE QUOTATION MARK ORNAMENT",
text! "2770          ; Grapheme_Base # Ps       HEAVY LEFT-POINTING ANGLE BRACKET ORNAMENT",
text! "2771          ; Grapheme_Base # Pe       HEAVY RIGHT-POINTING ANGLE BRACKET ORNAMENT",
text! "2772          ; Grapheme_Base # Ps       LIGHT LEFT TORTOISE SHELL BRACKET ORNAMENT",
text! "2773          ; Grapheme_Base # Pe       LIGHT RIGHT TORTOISE SHELL BRACKET ORNAMENT",
text! "2774          ; Grapheme_Base # Ps       MEDIUM LEFT CURLY BRACKET ORNAMENT",
text! "2775          ; Grapheme_Base # Pe       MEDIUM RIGHT CURLY BRACKET ORNAMENT",
text! "2776..2793    ; Grapheme_Base # No  [30] DINGBAT NEGATIVE CIRCLED DIGIT ONE..DINGBAT NEGATIVE CIRCLED SANS-SERIF NUMBER TEN",
text! "2794..27BF    ; Grapheme_Base # So  [44] HEAVY WIDE-HEADED RIGHTWARDS ARROW..DOUBLE CURLY LOOP",
text! "27C0..27C4    ; Grapheme_Base # Sm   [5] THREE DIMENSIONAL ANGLE..OPEN SUPERSET",
text! "27C5          ; Grapheme_Base # Ps       LEFT S-SHAPED BAG DELIMITER",
text! "27C6          ; Grapheme_Base # Pe       RIGHT S-SHAPED BAG DELIMITER",
text! "27C7..27E5    ; Grapheme_Base # Sm  [31] OR WITH DOT INSIDE..WHITE SQUARE WITH RIGHTWARDS TICK",
text! "27E6          ; Grapheme_Base # Ps       MATHEMATICAL LEFT WHITE SQUARE BRACKET",
text! "27E7          ; Grapheme_Base # Pe       MATHEMATICAL RIGHT WHITE SQUARE BRACKET",
text! "27E8          ; Grapheme_Base # Ps       MATHEMATICAL LEFT ANGLE BRACKET",
text! "27E9          ; Grapheme_Base # Pe       MATHEMATICAL RIGHT ANGLE BRACKET",
text! "27EA          ; Grapheme_Base # Ps       MATHEMATICAL LEFT DOUBLE ANGLE BRACKET",
text! "27EB          ; Grapheme_Base # Pe       MATHEMATICAL RIGHT DOUBLE ANGLE BRACKET",
text! "27EC          ; Grapheme_Base # Ps       MATHEMATICAL LEFT WHITE TORTOISE SHELL BRACKET",
text! "27ED          ; Grapheme_Base # Pe       MATHEMATICAL RIGHT WHITE TORTOISE SHELL BRACKET"]

/-- lines 11905-11968 -/
def derivedCore186 : List Nat := [
text! "27EE          ; Grapheme_Base # Ps       MATHEMATICAL LEFT FLATTENED PARENTHESIS",
text! "27EF          ; Grapheme_Base # Pe       MATHEMATICAL RIGHT FLATTENED PARENTHESIS",
text! "27F0..27FF    ; Grapheme_Base # Sm  [16] UPWARDS QUADRUPLE ARROW..LONG RIGHTWARDS SQUIGGLE ARROW",
text! "2800..28FF    ; Grapheme_Base # So [256] BRAILLE PATTERN BLANK..BRAILLE PATTERN DOTS-12345678",
text! "2900..2982    ; Grapheme_Base # Sm [131] RIGHTWARDS TWO-HEADED ARROW WITH VERTICAL STROKE..Z NOTATION TYPE COLON",
text! "2983          ; Grapheme_Base # Ps       LEFT WHITE CURLY BRACKET",
text! "2984          ; Grapheme_Base # Pe       RIGHT WHITE CURLY BRACKET",
text! "2985          ; Grapheme_Base # Ps       LEFT WHITE PARENTHESIS",
text! "2986          ; Grapheme_Base # Pe       RIGHT WHITE PARENTHESIS",
text! "2987          ; Grapheme_Base # Ps       Z NOTATION LEFT IMAGE BRACKET",
text! "2988          ; Grapheme_Base # Pe       Z NOTATION RIGHT IMAGE BRACKET",
text! "2989          ; Grapheme_Base # Ps       Z NOTATION LEFT BINDING BRACKET",
text! "298A          ; Grapheme_Base # Pe       Z NOTATION RIGHT BINDING BRACKET",
text! "298B          ; Grapheme_Base # Ps       LEFT SQUARE BRACKET WITH UNDERBAR",
text! "298C          ; Grapheme_Base # Pe       RIGHT SQUARE BRACKET WITH UNDERBAR",
text! "298D          ; Grapheme_Base # Ps       LEFT SQUARE BRACKET WITH TICK IN TOP CORNER",
text! "298E          ; Grapheme_Base # Pe       RIGHT SQUARE BRACKET WITH TICK IN BOTTOM CORNER",
text! "298F          ; Grapheme_Base # Ps       LEFT SQUARE BRACKET WITH TICK IN BOTTOM CORNER",
text! "2990          ; Grapheme_Base # Pe       RIGHT SQUARE BRACKET WITH TICK IN TOP CORNER",
text! "2991          ; Grapheme_Base # Ps       LEFT ANGLE BRACKET WITH DOT",
text! "2992          ; Grapheme_Base # Pe       RIGHT ANGLE BRACKET WITH DOT",
text! "2993          ; Grapheme_Base # Ps       LEFT ARC LESS-THAN BRACKET",
text! "2994          ; Grapheme_Base # Pe       RIGHT ARC GREATER-THAN BRACKET",
text! "2995          ; Grapheme_Base # Ps       DOUBLE LEFT ARC GREATER-THAN BRACKET",
text! "2996          ; Grapheme_Base # Pe       DOUBLE RIGHT ARC LESS-THAN BRACKET",
text! "2997          ; Grapheme_Base # Ps       LEFT BLACK TORTOISE SHELL BRACKET",
text! "2998          ; Grapheme_Base # Pe       RIGHT BLACK TORTOISE SHELL BRACKET",
text! "2999..29D7    ; Grapheme_Base # Sm  [63] DOTTED FENCE..BLACK HOURGLASS",
text! "29D8          ; Grapheme_Base # Ps       LEFT WIGGLY FENCE",
text! "29D9          ; Grapheme_Base # Pe       RIGHT WIGGLY FENCE",
text! "29DA          ; Grapheme_Base # Ps       LEFT DOUBLE WIGGLY FENCE",
text! "29DB          ; Grapheme_Base # Pe       RIGHT DOUBLE WIGGLY FENCE",
text! "29DC..29FB    ; Grapheme_Base # Sm  [32] INCOMPLETE INFINITY..TRIPLE PLUS",
text! "29FC          ; Grapheme_Base # Ps       LEFT-POINTING CURVED ANGLE BRACKET",
text! "29FD          ; Grapheme_Base # Pe       RIGHT-POINTING CURVED ANGLE BRACKET",
text! "29FE..2AFF    ; Grapheme_Base # Sm [258] TINY..N-ARY WHITE VERTICAL BAR",
text! "2B00..2B2F    ; Grapheme_Base # So  [48] NORTH EAST WHITE ARROW..WHITE VERTICAL ELLIPSE",
text! "2B30..2B44    ; Grapheme_Base # Sm  [21] LEFT ARROW WITH SMALL CIRCLE..RIGHTWARDS ARROW THROUGH SUPERSET",
text! "2B45..2B46    ; Grapheme_Base # So   [2] LEFTWARDS QUADRUPLE ARROW..RIGHTWARDS QUADRUPLE ARROW",
text! "2B47..2B4C    ; Grapheme_Base # Sm   [6] REVERSE TILDE OPERATOR ABOVE RIGHTWARDS ARROW..RIGHTWARDS ARROW ABOVE REVERSE TILDE OPERATOR",
text! "2B4D..2B73    ; Grapheme_Base # So  [39] DOWNWARDS TRIANGLE-HEADED ZIGZAG ARROW..DOWNWARDS TRIANGLE-HEADED ARROW TO BAR",
text! "2B76..2BFF    ; Grapheme_Base # So [138] NORTH WEST TRIANGLE-HEADED ARROW TO BAR..HELLSCHREIBER PAUSE SYMBOL",
text! "2C00..2C7B    ; Grapheme_Base # L& [124] GLAGOLITIC CAPITAL LETTER AZU..LATIN LETTER SMALL CAPITAL TURNED E",
text! "2C7C..2C7D    ; Grapheme_Base # Lm   [2] LATIN SUBSCRIPT SMALL LETTER J..MODIFIER LETTER CAPITAL V",
text! "2C7E..2CE4    ; Grapheme_Base # L& [103] LATIN CAPITAL LETTER S WITH SWASH TAIL..COPTIC SYMBOL KAI",
text! "2CE5..2CEA    ; Grapheme_Base # So   [6] COPTIC SYMBOL MI RO..COPTIC SYMBOL SHIMA SIMA",
text! "2CEB..2CEE    ; Grapheme_Base # L&   [4] COPTIC CAPITAL LETTER CRYPTOGRAMMIC SHEI..COPTIC SMALL LETTER CRYPTOGRAMMIC GANGIA",
text! "2CF2..2CF3    ; Grapheme_Base # L&   [2] COPTIC CAPITAL LETTER BOHAIRIC KHEI..COPTIC SMALL LETTER BOHAIRIC KHEI",
text! "2CF9..2CFC    ; Grapheme_Base # Po   [4] COPTIC OLD NUBIAN FULL STOP..COPTIC OLD NUBIAN VERSE DIVIDER",
text! "2CFD          ; Grapheme_Base # No       COPTIC FRACTION ONE HALF",
text! "2CFE..2CFF    ; Grapheme_Base # Po   [2] COPTIC FULL STOP..COPTIC MORPHOLOGICAL DIVIDER",
text! "2D00..2D25    ; Grapheme_Base # L&  [38] GEORGIAN SMALL LETTER AN..GEORGIAN SMALL LETTER HOE",
text! "2D27          ; Grapheme_Base # L&       GEORGIAN SMALL LETTER YN",
text! "2D2D          ; Grapheme_Base # L&       GEORGIAN SMALL LETTER AEN",
text! "2D30..2D67    ; Grapheme_Base # Lo  [56] TIFINAGH LETTER YA..TIFINAGH LETTER YO",
text! "2D6F          ; Grapheme_Base # Lm       TIFINAGH MODIFIER LETTER LABIALIZATION MARK",
text! "2D70          ; Grapheme_Base # Po       TIFINAGH SEPARATOR MARK",
text! "2D80..2D96    ; Grapheme_Base # Lo  [23] ETHIOPIC SYLLABLE LOA..ETHIOPIC SYLLABLE GGWE",
text! "2DA0..2DA6    ; Grapheme_Base # Lo   [7] ETHIOPIC SYLLABLE SSA..ETHIOPIC SYLLABLE SSO",
text! "2DA8..2DAE    ; Grapheme_Base # Lo   [7] ETHIOPIC SYLLABLE CCA..ETHIOPIC SYLLABLE CCO",
text! "2DB0..2DB6    ; Grapheme_Base # Lo   [7] ETHIOPIC SYLLABLE ZZA..ETHIOPIC SYLLABLE ZZO",
text! "2DB8..2DBE    ; Grapheme_Base # Lo   [7] ETHIOPIC SYLLABLE CCHA..ETHIOPIC SYLLABLE CCHO",
text! "2DC0..2DC6    ; Grapheme_Base # Lo   [7] ETHIOPIC SYLLABLE QYA..ETHIOPIC SYLLABLE QYO",
text! "2DC8..2DCE    ; Grapheme_Base # Lo   [7] ETHIOPIC SYLLABLE KYA..ETHIOPIC SYLLABLE KYO"]

/-- lines 11969-12032 -/
def derivedCore187 : List Nat := [
text! "2DD0..2DD6    ; Grapheme_Base # Lo   [7] ETHIOPIC SYLLABLE XYA..ETHIOPIC SYLLABLE XYO",
text! "2DD8..2DDE    ; Grapheme_Base # Lo   [7] ETHIOPIC SYLLABLE GYA..ETHIOPIC SYLLABLE GYO",
text! "2E00..2E01    ; Grapheme_Base # Po   [2] RIGHT ANGLE SUBSTITUTION MARKER..RIGHT ANGLE DOTTED SUBSTITUTION MARKER",
text! "2E02          ; Grapheme_Base # Pi       LEFT SUBSTITUTION BRACKET",
text! "2E03          ; Grapheme_Base # Pf       RIGHT SUBSTITUTION BRACKET",
text! "2E04          ; Grapheme_Base # Pi       LEFT DOTTED SUBSTITUTION BRACKET",
text! "2E05          ; Grapheme_Base # Pf       RIGHT DOTTED SUBSTITUTION BRACKET",
text! "2E06..2E08    ; Grapheme_Base # Po   [3] RAISED INTERPOLATION MARKER..DOTTED TRANSPOSITION MARKER",
text! "2E09          ; Grapheme_Base # Pi       LEFT TRANSPOSITION BRACKET",
text! "2E0A          ; Grapheme_Base # Pf       RIGHT TRANSPOSITION BRACKET",
text! "2E0B          ; Grapheme_Base # Po       RAISED SQUARE",
text! "2E0C          ; Grapheme_Base # Pi       LEFT RAISED OMISSION BRACKET",
text! "2E0D          ; Grapheme_Base # Pf       RIGHT RAISED OMISSION BRACKET",
text! "2E0E..2E16    ; Grapheme_Base # Po   [9] EDITORIAL CORONIS..DOTTED RIGHT-POINTING ANGLE",
text! "2E17          ; Grapheme_Base # Pd       DOUBLE OBLIQUE HYPHEN",
text! "2E18..2E19    ; Grapheme_Base # Po   [2] INVERTED INTERROBANG..PALM BRANCH",
text! "2E1A          ; Grapheme_Base # Pd       HYPHEN WITH DIAERESIS",
text! "2E1B          ; Grapheme_Base # Po       TILDE WITH RING ABOVE",
text! "2E1C          ; Grapheme_Base # Pi       LEFT LOW PARAPHRASE BRACKET",
text! "2E1D          ; Grapheme_Base # Pf       RIGHT LOW PARAPHRASE BRACKET",
text! "2E1E..2E1F    ; Grapheme_Base # Po   [2] TILDE WITH DOT ABOVE..TILDE WITH DOT BELOW",
text! "2E20          ; Grapheme_Base # Pi       LEFT VERTICAL BAR WITH QUILL",
text! "2E21          ; Grapheme_Base # Pf       RIGHT VERTICAL BAR WITH QUILL",
text! "2E22          ; Grapheme_Base # Ps       TOP LEFT HALF BRACKET",
text! "2E23          ; Grapheme_Base # Pe       TOP RIGHT HALF BRACKET",
text! "2E24          ; Grapheme_Base # Ps       BOTTOM LEFT HALF BRACKET",
text! "2E25          ; Grapheme_Base # Pe       BOTTOM RIGHT HALF BRACKET",
text! "2E26          ; Grapheme_Base # Ps       LEFT SIDEWAYS U BRACKET",
text! "2E27          ; Grapheme_Base # Pe       RIGHT SIDEWAYS U BRACKET",
text! "2E28          ; Grapheme_Base # Ps       LEFT DOUBLE PARENTHESIS",
text! "2E29          ; Grapheme_Base # Pe       RIGHT DOUBLE PARENTHESIS",
text! "2E2A..2E2E    ; Grapheme_Base # Po   [5] TWO DOTS OVER ONE DOT PUNCTUATION..REVERSED QUESTION MARK",
text! "2E2F          ; Grapheme_Base # Lm       VERTICAL TILDE",
text! "2E30..2E39    ; Grapheme_Base # Po  [10] RING POINT..TOP HALF SECTION SIGN",
text! "2E3A..2E3B    ; Grapheme_Base # Pd   [2] TWO-EM DASH..THREE-EM DASH",
text! "2E3C..2E3F    ; Grapheme_Base # Po   [4] STENOGRAPHIC FULL STOP..CAPITULUM",
text! "2E40          ; Grapheme_Base # Pd       DOUBLE HYPHEN",
text! "2E41          ; Grapheme_Base # Po       REVERSED COMMA",
text! "2E42          ; Grapheme_Base # Ps       DOUBLE LOW-REVERSED-9 QUOTATION MARK",
text! "2E43..2E4F    ; Grapheme_Base # Po  [13] DASH WITH LEFT UPTURN..CORNISH VERSE DIVIDER",
text! "2E50..2E51    ; Grapheme_Base # So   [2] CROSS PATTY WITH RIGHT CROSSBAR..CROSS PATTY WITH LEFT CROSSBAR",
text! "2E52..2E54    ; Grapheme_Base # Po   [3] TIRONIAN SIGN CAPITAL ET..MEDIEVAL QUESTION MARK",
text! "2E55          ; Grapheme_Base # Ps       LEFT SQUARE BRACKET WITH STROKE",
text! "2E56          ; Grapheme_Base # Pe       RIGHT SQUARE BRACKET WITH STROKE",
text! "2E57          ; Grapheme_Base # Ps       LEFT SQUARE BRACKET WITH DOUBLE STROKE",
text! "2E58          ; Grapheme_Base # Pe       RIGHT SQUARE BRACKET WITH DOUBLE STROKE",
text! "2E59          ; Grapheme_Base # Ps       TOP HALF LEFT PARENTHESIS",
text! "2E5A          ; Grapheme_Base # Pe       TOP HALF RIGHT PARENTHESIS",
text! "2E5B          ; Grapheme_Base # Ps       BOTTOM HALF LEFT PARENTHESIS",
text! "2E5C          ; Grapheme_Base # Pe       BOTTOM HALF RIGHT PARENTHESIS",
text! "2E5D          ; Grapheme_Base # Pd       OBLIQUE HYPHEN",
text! "2E80..2E99    ; Grapheme_Base # So  [26] CJK RADICAL REPEAT..CJK RADICAL RAP",
text! "2E9B..2EF3    ; Grapheme_Base # So  [89] CJK RADICAL CHOKE..CJK RADICAL C-SIMPLIFIED TURTLE",
text! "2F00..2FD5    ; Grapheme_Base # So [214] KANGXI RADICAL ONE..KANGXI RADICAL FLUTE",
text! "2FF0..2FFF    ; Grapheme_Base # So  [16] IDEOGRAPHIC DESCRIPTION CHARACTER LEFT TO RIGHT..IDEOGRAPHIC DESCRIPTION CHARACTER ROTATION",
text! "3000          ; Grapheme_Base # Zs       IDEOGRAPHIC SPACE",
text! "3001..3003    ; Grapheme_Base # Po   [3] IDEOGRAPHIC COMMA..DITTO MARK",
text! "3004          ; Grapheme_Base # So       JAPANESE INDUSTRIAL STANDARD SYMBOL",
text! "3005          ; Grapheme_Base # Lm       IDEOGRAPHIC ITERATION MARK",
text! "3006          ; Grapheme_Base # Lo       IDEOGRAPHIC CLOSING MARK",
text! "3007          ; Grapheme_Base # Nl       IDEOGRAPHIC NUMBER ZERO",
text! "3008          ; Grapheme_Base # Ps       LEFT ANGLE BRACKET",
text! "3009          ; Grapheme_Base # Pe       RIGHT ANGLE BRACKET",
text! "300A          ; Grapheme_Base # Ps       LEFT DOUBLE ANGLE BRACKET"]

/-- lines 12033-12096 -/
def derivedCore188 : List Nat := [
text! "300B          ; Grapheme_Base # Pe       RIGHT DOUBLE ANGLE BRACKET",
text! "300C          ; Grapheme_Base # Ps       LEFT CORNER BRACKET",
text! "300D          ; Grapheme_Base # Pe       RIGHT CORNER BRACKET",
text! "300E          ; Grapheme_Base # Ps       LEFT WHITE CORNER BRACKET",
text! "300F          ; Grapheme_Base # Pe       RIGHT WHITE CORNER BRACKET",
text! "3010          ; Grapheme_Base # Ps       LEFT BLACK LENTICULAR BRACKET",
text! "3011          ; Grapheme_Base # Pe       RIGHT BLACK LENTICULAR BRACKET",
text! "3012..3013    ; Grapheme_Base # So   [2] POSTAL MARK..GETA MARK",
text! "3014          ; Grapheme_Base # Ps       LEFT TORTOISE SHELL BRACKET",
text! "3015          ; Grapheme_Base # Pe       RIGHT TORTOISE SHELL BRACKET",
text! "3016          ; Grapheme_Base # Ps       LEFT WHITE LENTICULAR BRACKET",
text! "3017          ; Grapheme_Base # Pe       RIGHT WHITE LENTICULAR BRACKET",
text! "3018          ; Grapheme_Base # Ps       LEFT WHITE TORTOISE SHELL BRACKET",
text! "3019          ; Grapheme_Base # Pe       RIGHT WHITE TORTOISE SHELL BRACKET",
text! "301A          ; Grapheme_Base # Ps       LEFT WHITE SQUARE BRACKET",
text! "301B          ; Grapheme_Base # Pe       RIGHT WHITE SQUARE BRACKET",
text! "301C          ; Grapheme_Base # Pd       WAVE DASH",
text! "301D          ; Grapheme_Base # Ps       REVERSED DOUBLE PRIME QUOTATION MARK",
text! "301E..301F    ; Grapheme_Base # Pe   [2] DOUBLE PRIME QUOTATION MARK..LOW DOUBLE PRIME QUOTATION MARK",
text! "3020          ; Grapheme_Base # So       POSTAL MARK FACE",
text! "3021..3029    ; Grapheme_Base # Nl   [9] HANGZHOU NUMERAL ONE..HANGZHOU NUMERAL NINE",
text! "3030          ; Grapheme_Base # Pd       WAVY DASH",
text! "3031..3035    ; Grapheme_Base # Lm   [5] VERTICAL KANA REPEAT MARK..VERTICAL KANA REPEAT MARK LOWER HALF",
text! "3036..3037    ; Grapheme_Base # So   [2] CIRCLED POSTAL MARK..IDEOGRAPHIC TELEGRAPH LINE FEED SEPARATOR SYMBOL",
text! "3038..303A    ; Grapheme_Base # Nl   [3] HANGZHOU NUMERAL TEN..HANGZHOU NUMERAL THIRTY",
text! "303B          ; Grapheme_Base # Lm       VERTICAL IDEOGRAPHIC ITERATION MARK",
text! "303C          ; Grapheme_Base # Lo       MASU MARK",
text! "303D          ; Grapheme_Base # Po       PART ALTERNATION MARK",
text! "303E..303F    ; Grapheme_Base # So   [2] IDEOGRAPHIC VARIATION INDICATOR..IDEOGRAPHIC HALF FILL SPACE",
text! "3041..3096    ; Grapheme_Base # Lo  [86] HIRAGANA LETTER SMALL A..HIRAGANA LETTER SMALL KE",
text! "309B..309C    ; Grapheme_Base # Sk   [2] KATAKANA-HIRAGANA VOICED SOUND MARK..KATAKANA-HIRAGANA SEMI-VOICED SOUND MARK",
text! "309D..309E    ; Grapheme_Base # Lm   [2] HIRAGANA ITERATION MARK..HIRAGANA VOICED ITERATION MARK",
text! "309F          ; Grapheme_Base # Lo       HIRAGANA DIGRAPH YORI",
text! "30A0          ; Grapheme_Base # Pd       KATAKANA-HIRAGANA DOUBLE HYPHEN",
text! "30A1..30FA    ; Grapheme_Base # Lo  [90] KATAKANA LETTER SMALL A..KATAKANA LETTER VO",
text! "30FB          ; Grapheme_Base # Po       KATAKANA MIDDLE DOT",
text! "30FC..30FE    ; Grapheme_Base # Lm   [3] KATAKANA-HIRAGANA PROLONGED SOUND MARK..KATAKANA VOICED ITERATION MARK",
text! "30FF          ; Grapheme_Base # Lo       KATAKANA DIGRAPH KOTO",
text! "3105..312F    ; Grapheme_Base # Lo  [43] BOPOMOFO LETTER B..BOPOMOFO LETTER NN",
text! "3131..318E    ; Grapheme_Base # Lo  [94] HANGUL LETTER KIYEOK..HANGUL LETTER ARAEAE",
text! "3190..3191    ; Grapheme_Base # So   [2] IDEOGRAPHIC ANNOTATION LINKING MARK..IDEOGRAPHIC ANNOTATION REVERSE MARK",
text! "3192..3195    ; Grapheme_Base # No   [4] IDEOGRAPHIC ANNOTATION ONE MARK..IDEOGRAPHIC ANNOTATION FOUR MARK",
text! "3196..319F    ; Grapheme_Base # So  [10] IDEOGRAPHIC ANNOTATION TOP MARK..IDEOGRAPHIC ANNOTATION MAN MARK",
text! "31A0..31BF    ; Grapheme_Base # Lo  [32] BOPOMOFO LETTER BU..BOPOMOFO LETTER AH",
text! "31C0..31E5    ; Grapheme_Base # So  [38] CJK STROKE T..CJK STROKE SZP",
text! "31EF          ; Grapheme_Base # So       IDEOGRAPHIC DESCRIPTION CHARACTER SUBTRACTION",
text! "31F0..31FF    ; Grapheme_Base # Lo  [16] KATAKANA LETTER SMALL KU..KATAKANA LETTER SMALL RO",
text! "3200..321E    ; Grapheme_Base # So  [31] PARENTHESIZED HANGUL KIYEOK..PARENTHESIZED KOREAN CHARACTER O HU",
text! "3220..3229    ; Grapheme_Base # No  [10] PARENTHESIZED IDEOGRAPH ONE..PARENTHESIZED IDEOGRAPH TEN",
text! "322A..3247    ; Grapheme_Base # So  [30] PARENTHESIZED IDEOGRAPH MOON..CIRCLED IDEOGRAPH KOTO",
text! "3248..324F    ; Grapheme_Base # No   [8] CIRCLED NUMBER TEN ON BLACK SQUARE..CIRCLED NUMBER EIGHTY ON BLACK SQUARE",
text! "3250          ; Grapheme_Base # So       PARTNERSHIP SIGN",
text! "3251..325F    ; Grapheme_Base # No  [15] CIRCLED NUMBER TWENTY ONE..CIRCLED NUMBER THIRTY FIVE",
text! "3260..327F    ; Grapheme_Base # So  [32] CIRCLED HANGUL KIYEOK..KOREAN STANDARD SYMBOL",
text! "3280..3289    ; Grapheme_Base # No  [10] CIRCLED IDEOGRAPH ONE..CIRCLED IDEOGRAPH TEN",
text! "328A..32B0    ; Grapheme_Base # So  [39] CIRCLED IDEOGRAPH MOON..CIRCLED IDEOGRAPH NIGHT",
text! "32B1..32BF    ; Grapheme_Base # No  [15] CIRCLED NUMBER THIRTY SIX..CIRCLED NUMBER FIFTY",
text! "32C0..33FF    ; Grapheme_Base # So [320] IDEOGRAPHIC TELEGRAPH SYMBOL FOR JANUARY..SQUARE GAL",
text! "3400..4DBF    ; Grapheme_Base # Lo [6592] CJK UNIFIED IDEOGRAPH-3400..CJK UNIFIED IDEOGRAPH-4DBF",
text! "4DC0..4DFF    ; Grapheme_Base # So  [64] HEXAGRAM FOR THE CREATIVE HEAVEN..HEXAGRAM FOR BEFORE COMPLETION",
text! "4E00..A014    ; Grapheme_Base # Lo [21013] CJK UNIFIED IDEOGRAPH-4E00..YI SYLLABLE E",
text! "A015          ; Grapheme_Base # Lm       YI SYLLABLE WU",
text! "A016..A48C    ; Grapheme_Base # Lo [1143] YI SYLLABLE BIT..YI SYLLABLE YYR",
text! "A490..A4C6    ; Grapheme_Base # So  [55] YI RADICAL QOT..YI RADICAL KE"]

/-- lines 12097-12160 -/
def derivedCore189 : List Nat := [
text! "A4D0..A4F7    ; Grapheme_Base # Lo  [40] LISU LETTER BA..LISU LETTER OE",
text! "A4F8..A4FD    ; Grapheme_Base # Lm   [6] LISU LETTER TONE MYA TI..LISU LETTER TONE MYA JEU",
text! "A4FE..A4FF    ; Grapheme_Base # Po   [2] LISU PUNCTUATION COMMA..LISU PUNCTUATION FULL STOP",
text! "A500..A60B    ; Grapheme_Base # Lo [268] VAI SYLLABLE EE..VAI SYLLABLE NG",
text! "A60C          ; Grapheme_Base # Lm       VAI SYLLABLE LENGTHENER",
text! "A60D..A60F    ; Grapheme_Base # Po   [3] VAI COMMA..VAI QUESTION MARK",
text! "A610..A61F    ; Grapheme_Base # Lo  [16] VAI SYLLABLE NDOLE FA..VAI SYMBOL JONG",
text! "A620..A629    ; Grapheme_Base # Nd  [10] VAI DIGIT ZERO..VAI DIGIT NINE",
text! "A62A..A62B    ; Grapheme_Base # Lo   [2] VAI SYLLABLE NDOLE MA..VAI SYLLABLE NDOLE DO",
text! "A640..A66D    ; Grapheme_Base # L&  [46] CYRILLIC CAPITAL LETTER ZEMLYA..CYRILLIC SMALL LETTER DOUBLE MONOCULAR O",
text! "A66E          ; Grapheme_Base # Lo       CYRILLIC LETTER MULTIOCULAR O",
text! "A673          ; Grapheme_Base # Po       SLAVONIC ASTERISK",
text! "A67E          ; Grapheme_Base # Po       CYRILLIC KAVYKA",
text! "A67F          ; Grapheme_Base # Lm       CYRILLIC PAYEROK",
text! "A680..A69B    ; Grapheme_Base # L&  [28] CYRILLIC CAPITAL LETTER DWE..CYRILLIC SMALL LETTER CROSSED O",
text! "A69C..A69D    ; Grapheme_Base # Lm   [2] MODIFIER LETTER CYRILLIC HARD SIGN..MODIFIER LETTER CYRILLIC SOFT SIGN",
text! "A6A0..A6E5    ; Grapheme_Base # Lo  [70] BAMUM LETTER A..BAMUM LETTER KI",
text! "A6E6..A6EF    ; Grapheme_Base # Nl  [10] BAMUM LETTER MO..BAMUM LETTER KOGHOM",
text! "A6F2..A6F7    ; Grapheme_Base # Po   [6] BAMUM NJAEMLI..BAMUM QUESTION MARK",
text! "A700..A716    ; Grapheme_Base # Sk  [23] MODIFIER LETTER CHINESE TONE YIN PING..MODIFIER LETTER EXTRA-LOW LEFT-STEM TONE BAR",
text! "A717..A71F    ; Grapheme_Base # Lm   [9] MODIFIER LETTER DOT VERTICAL BAR..MODIFIER LETTER LOW INVERTED EXCLAMATION MARK",
text! "A720..A721    ; Grapheme_Base # Sk   [2] MODIFIER LETTER STRESS AND HIGH TONE..MODIFIER LETTER STRESS AND LOW TONE",
text! "A722..A76F    ; Grapheme_Base # L&  [78] LATIN CAPITAL LETTER EGYPTOLOGICAL ALEF..LATIN SMALL LETTER CON",
text! "A770          ; Grapheme_Base # Lm       MODIFIER LETTER US",
text! "A771..A787    ; Grapheme_Base # L&  [23] LATIN SMALL LETTER DUM..LATIN SMALL LETTER INSULAR T",
text! "A788          ; Grapheme_Base # Lm       MODIFIER LETTER LOW CIRCUMFLEX ACCENT",
text! "A789..A78A    ; Grapheme_Base # Sk   [2] MODIFIER LETTER COLON..MODIFIER LETTER SHORT EQUALS SIGN",
text! "A78B..A78E    ; Grapheme_Base # L&   [4] LATIN CAPITAL LETTER SALTILLO..LATIN SMALL LETTER L WITH RETROFLEX HOOK AND BELT",
text! "A78F          ; Grapheme_Base # Lo       LATIN LETTER SINOLOGICAL DOT",
text! "A790..A7DC    ; Grapheme_Base # L&  [77] LATIN CAPITAL LETTER N WITH DESCENDER..LATIN CAPITAL LETTER LAMBDA WITH STROKE",
text! "A7F1..A7F4    ; Grapheme_Base # Lm   [4] MODIFIER LETTER CAPITAL S..MODIFIER LETTER CAPITAL Q",
text! "A7F5..A7F6    ; Grapheme_Base # L&   [2] LATIN CAPITAL LETTER REVERSED HALF H..LATIN SMALL LETTER REVERSED HALF H",
text! "A7F7          ; Grapheme_Base # Lo       LATIN EPIGRAPHIC LETTER SIDEWAYS I",
text! "A7F8..A7F9    ; Grapheme_Base # Lm   [2] MODIFIER LETTER CAPITAL H WITH STROKE..MODIFIER LETTER SMALL LIGATURE OE",
text! "A7FA          ; Grapheme_Base # L&       LATIN LETTER SMALL CAPITAL TURNED M",
text! "A7FB..A801    ; Grapheme_Base # Lo   [7] LATIN EPIGRAPHIC LETTER REVERSED F..SYLOTI NAGRI LETTER I",
text! "A803..A805    ; Grapheme_Base # Lo   [3] SYLOTI NAGRI LETTER U..SYLOTI NAGRI LETTER O",
text! "A807..A80A    ; Grapheme_Base # Lo   [4] SYLOTI NAGRI LETTER KO..SYLOTI NAGRI LETTER GHO",
text! "A80C..A822    ; Grapheme_Base # Lo  [23] SYLOTI NAGRI LETTER CO..SYLOTI NAGRI LETTER HO",
text! "A823..A824    ; Grapheme_Base # Mc   [2] SYLOTI NAGRI VOWEL SIGN A..SYLOTI NAGRI VOWEL SIGN I",
text! "A827          ; Grapheme_Base # Mc       SYLOTI NAGRI VOWEL SIGN OO",
text! "A828..A82B    ; Grapheme_Base # So   [4] SYLOTI NAGRI POETRY MARK-1..SYLOTI NAGRI POETRY MARK-4",
text! "A830..A835    ; Grapheme_Base # No   [6] NORTH INDIC FRACTION ONE QUARTER..NORTH INDIC FRACTION THREE SIXTEENTHS",
text! "A836..A837    ; Grapheme_Base # So   [2] NORTH INDIC QUARTER MARK..NORTH INDIC PLACEHOLDER MARK",
text! "A838          ; Grapheme_Base # Sc       NORTH INDIC RUPEE MARK",
text! "A839          ; Grapheme_Base # So       NORTH INDIC QUANTITY MARK",
text! "A840..A873    ; Grapheme_Base # Lo  [52] PHAGS-PA LETTER KA..PHAGS-PA LETTER CANDRABINDU",
text! "A874..A877    ; Grapheme_Base # Po   [4] PHAGS-PA SINGLE HEAD MARK..PHAGS-PA MARK DOUBLE SHAD",
text! "A880..A881    ; Grapheme_Base # Mc   [2] SAURASHTRA SIGN ANUSVARA..SAURASHTRA SIGN VISARGA",
text! "A882..A8B3    ; Grapheme_Base # Lo  [50] SAURASHTRA LETTER A..SAURASHTRA LETTER LLA",
text! "A8B4..A8C3    ; Grapheme_Base # Mc  [16] SAURASHTRA CONSONANT SIGN HAARU..SAURASHTRA VOWEL SIGN AU",
text! "A8CE..A8CF    ; Grapheme_Base # Po   [2] SAURASHTRA DANDA..SAURASHTRA DOUBLE DANDA",
text! "A8D0..A8D9    ; Grapheme_Base # Nd  [10] SAURASHTRA DIGIT ZERO..SAURASHTRA DIGIT NINE",
text! "A8F2..A8F7    ; Grapheme_Base # Lo   [6] DEVANAGARI SIGN SPACING CANDRABINDU..DEVANAGARI SIGN CANDRABINDU AVAGRAHA",
text! "A8F8..A8FA    ; Grapheme_Base # Po   [3] DEVANAGARI SIGN PUSHPIKA..DEVANAGARI CARET",
text! "A8FB          ; Grapheme_Base # Lo       DEVANAGARI HEADSTROKE",
text! "A8FC          ; Grapheme_Base # Po       DEVANAGARI SIGN SIDDHAM",
text! "A8FD..A8FE    ; Grapheme_Base # Lo   [2] DEVANAGARI JAIN OM..DEVANAGARI LETTER AY",
text! "A900..A909    ; Grapheme_Base # Nd  [10] KAYAH LI DIGIT ZERO..KAYAH LI DIGIT NINE",
text! "A90A..A925    ; Grapheme_Base # Lo  [28] KAYAH LI LETTER KA..KAYAH LI LETTER OO",
text! "A92E..A92F    ; Grapheme_Base # Po   [2] KAYAH LI SIGN CWI..KAYAH LI SIGN SHYA",
text! "A930..A946    ; Grapheme_Base # Lo  [23] REJANG LETTER KA..REJANG LETTER A",
text! "A952          ; Grapheme_Base # Mc       REJANG CONSONANT SIGN H",
text! "A95F          ; Grapheme_Base # Po       REJANG SECTION MARK"]

/-- lines 12161-12224 -/
def derivedCore190 : List Nat := [
text! "A960..A97C    ; Grapheme_Base # Lo  [29] HANGUL CHOSEONG TIKEUT-MIEUM..HANGUL CHOSEONG SSANGYEORINHIEUH",
text! "A983          ; Grapheme_Base # Mc       JAVANESE SIGN WIGNYAN",
text! "A984..A9B2    ; Grapheme_Base # Lo  [47] JAVANESE LETTER A..JAVANESE LETTER HA",
text! "A9B4..A9B5    ; Grapheme_Base # Mc   [2] JAVANESE VOWEL SIGN TARUNG..JAVANESE VOWEL SIGN TOLONG",
text! "A9BA..A9BB    ; Grapheme_Base # Mc   [2] JAVANESE VOWEL SIGN TALING..JAVANESE VOWEL SIGN DIRGA MURE",
text! "A9BE..A9BF    ; Grapheme_Base # Mc   [2] JAVANESE CONSONANT SIGN PENGKAL..JAVANESE CONSONANT SIGN CAKRA",
text! "A9C1..A9CD    ; Grapheme_Base # Po  [13] JAVANESE LEFT RERENGGAN..JAVANESE TURNED PADA PISELEH",
text! "A9CF          ; Grapheme_Base # Lm       JAVANESE PANGRANGKEP",
text! "A9D0..A9D9    ; Grapheme_Base # Nd  [10] JAVANESE DIGIT ZERO..JAVANESE DIGIT NINE",
text! "A9DE..A9DF    ; Grapheme_Base # Po   [2] JAVANESE PADA TIRTA TUMETES..JAVANESE PADA ISEN-ISEN",
text! "A9E0..A9E4    ; Grapheme_Base # Lo   [5] MYANMAR LETTER SHAN GHA..MYANMAR LETTER SHAN BHA",
text! "A9E6          ; Grapheme_Base # Lm       MYANMAR MODIFIER LETTER SHAN REDUPLICATION",
text! "A9E7..A9EF    ; Grapheme_Base # Lo   [9] MYANMAR LETTER TAI LAING NYA..MYANMAR LETTER TAI LAING NNA",
text! "A9F0..A9F9    ; Grapheme_Base # Nd  [10] MYANMAR TAI LAING DIGIT ZERO..MYANMAR TAI LAING DIGIT NINE",
text! "A9FA..A9FE    ; Grapheme_Base # Lo   [5] MYANMAR LETTER TAI LAING LLA..MYANMAR LETTER TAI LAING BHA",
text! "AA00..AA28    ; Grapheme_Base # Lo  [41] CHAM LETTER A..CHAM LETTER HA",
text! "AA2F..AA30    ; Grapheme_Base # Mc   [2] CHAM VOWEL SIGN O..CHAM VOWEL SIGN AI",
text! "AA33..AA34    ; Grapheme_Base # Mc   [2] CHAM CONSONANT SIGN YA..CHAM CONSONANT SIGN RA",
text! "AA40..AA42    ; Grapheme_Base # Lo   [3] CHAM LETTER FINAL K..CHAM LETTER FINAL NG",
text! "AA44..AA4B    ; Grapheme_Base # Lo   [8] CHAM LETTER FINAL CH..CHAM LETTER FINAL SS",
text! "AA4D          ; Grapheme_Base # Mc       CHAM CONSONANT SIGN FINAL H",
text! "AA50..AA59    ; Grapheme_Base # Nd  [10] CHAM DIGIT ZERO..CHAM DIGIT NINE",
text! "AA5C..AA5F    ; Grapheme_Base # Po   [4] CHAM PUNCTUATION SPIRAL..CHAM PUNCTUATION TRIPLE DANDA",
text! "AA60..AA6F    ; Grapheme_Base # Lo  [16] MYANMAR LETTER KHAMTI GA..MYANMAR LETTER KHAMTI FA",
text! "AA70          ; Grapheme_Base # Lm       MYANMAR MODIFIER LETTER KHAMTI REDUPLICATION",
text! "AA71..AA76    ; Grapheme_Base # Lo   [6] MYANMAR LETTER KHAMTI XA..MYANMAR LOGOGRAM KHAMTI HM",
text! "AA77..AA79    ; Grapheme_Base # So   [3] MYANMAR SYMBOL AITON EXCLAMATION..MYANMAR SYMBOL AITON TWO",
text! "AA7A          ; Grapheme_Base # Lo       MYANMAR LETTER AITON RA",
text! "AA7B          ; Grapheme_Base # Mc       MYANMAR SIGN PAO KAREN TONE",
text! "AA7D          ; Grapheme_Base # Mc       MYANMAR SIGN TAI LAING TONE-5",
text! "AA7E..AAAF    ; Grapheme_Base # Lo  [50] MYANMAR LETTER SHWE PALAUNG CHA..TAI VIET LETTER HIGH O",
text! "AAB1          ; Grapheme_Base # Lo       TAI VIET VOWEL AA",
text! "AAB5..AAB6    ; Grapheme_Base # Lo   [2] TAI VIET VOWEL E..TAI VIET VOWEL O",
text! "AAB9..AABD    ; Grapheme_Base # Lo   [5] TAI VIET VOWEL UEA..TAI VIET VOWEL AN",
text! "AAC0          ; Grapheme_Base # Lo       TAI VIET TONE MAI NUENG",
text! "AAC2          ; Grapheme_Base # Lo       TAI VIET TONE MAI SONG",
text! "AADB..AADC    ; Grapheme_Base # Lo   [2] TAI VIET SYMBOL KON..TAI VIET SYMBOL NUENG",
text! "AADD          ; Grapheme_Base # Lm       TAI VIET SYMBOL SAM",
text! "AADE..AADF    ; Grapheme_Base # Po   [2] TAI VIET SYMBOL HO HOI..TAI VIET SYMBOL KOI KOI",
text! "AAE0..AAEA    ; Grapheme_Base # Lo  [11] MEETEI MAYEK LETTER E..MEETEI MAYEK LETTER SSA",
text! "AAEB          ; Grapheme_Base # Mc       MEETEI MAYEK VOWEL SIGN II",
text! "AAEE..AAEF    ; Grapheme_Base # Mc   [2] MEETEI MAYEK VOWEL SIGN AU..MEETEI MAYEK VOWEL SIGN AAU",
text! "AAF0..AAF1    ; Grapheme_Base # Po   [2] MEETEI MAYEK CHEIKHAN..MEETEI MAYEK AHANG KHUDAM",
text! "AAF2          ; Grapheme_Base # Lo       MEETEI MAYEK ANJI",
text! "AAF3..AAF4    ; Grapheme_Base # Lm   [2] MEETEI MAYEK SYLLABLE REPETITION MARK..MEETEI MAYEK WORD REPETITION MARK",
text! "AAF5          ; Grapheme_Base # Mc       MEETEI MAYEK VOWEL SIGN VISARGA",
text! "AB01..AB06    ; Grapheme_Base # Lo   [6] ETHIOPIC SYLLABLE TTHU..ETHIOPIC SYLLABLE TTHO",
text! "AB09..AB0E    ; Grapheme_Base # Lo   [6] ETHIOPIC SYLLABLE DDHU..ETHIOPIC SYLLABLE DDHO",
text! "AB11..AB16    ; Grapheme_Base # Lo   [6] ETHIOPIC SYLLABLE DZU..ETHIOPIC SYLLABLE DZO",
text! "AB20..AB26    ; Grapheme_Base # Lo   [7] ETHIOPIC SYLLABLE CCHHA..ETHIOPIC SYLLABLE CCHHO",
text! "AB28..AB2E    ; Grapheme_Base # Lo   [7] ETHIOPIC SYLLABLE BBA..ETHIOPIC SYLLABLE BBO",
text! "AB30..AB5A    ; Grapheme_Base # L&  [43] LATIN SMALL LETTER BARRED ALPHA..LATIN SMALL LETTER Y WITH SHORT RIGHT LEG",
text! "AB5B          ; Grapheme_Base # Sk       MODIFIER BREVE WITH INVERTED BREVE",
text! "AB5C..AB5F    ; Grapheme_Base # Lm   [4] MODIFIER LETTER SMALL HENG..MODIFIER LETTER SMALL U WITH LEFT HOOK",
text! "AB60..AB68    ; Grapheme_Base # L&   [9] LATIN SMALL LETTER SAKHA YAT..LATIN SMALL LETTER TURNED R WITH MIDDLE TILDE",
text! "AB69          ; Grapheme_Base # Lm       MODIFIER LETTER SMALL TURNED W",
text! "AB6A..AB6B    ; Grapheme_Base # Sk   [2] MODIFIER LETTER LEFT TACK..MODIFIER LETTER RIGHT TACK",
text! "AB70..ABBF    ; Grapheme_Base # L&  [80] CHEROKEE SMALL LETTER A..CHEROKEE SMALL LETTER YA",
text! "ABC0..ABE2    ; Grapheme_Base # Lo  [35] MEETEI MAYEK LETTER KOK..MEETEI MAYEK LETTER I LONSUM",
text! "ABE3..ABE4    ; Grapheme_Base # Mc   [2] MEETEI MAYEK VOWEL SIGN ONAP..MEETEI MAYEK VOWEL SIGN INAP",
text! "ABE6..ABE7    ; Grapheme_Base # Mc   [2] MEETEI MAYEK VOWEL SIGN YENAP..MEETEI MAYEK VOWEL SIGN SOUNAP",
text! "ABE9..ABEA    ; Grapheme_Base # Mc   [2] MEETEI MAYEK VOWEL SIGN CHEINAP..MEETEI MAYEK VOWEL SIGN NUNG",
text! "ABEB          ; Grapheme_Base # Po       MEETEI MAYEK CHEIKHEI",
text! "ABEC          ; Grapheme_Base # Mc       MEETEI MAYEK LUM IYEK"]

/-- lines 12225-12288 -/
def derivedCore191 : List Nat := [
text! "ABF0..ABF9    ; Grapheme_Base # Nd  [10] MEETEI MAYEK DIGIT ZERO..MEETEI MAYEK DIGIT NINE",
text! "AC00..D7A3    ; Grapheme_Base # Lo [11172] HANGUL SYLLABLE GA..HANGUL SYLLABLE HIH",
text! "D7B0..D7C6    ; Grapheme_Base # Lo  [23] HANGUL JUNGSEONG O-YEO..HANGUL JUNGSEONG ARAEA-E",
text! "D7CB..D7FB    ; Grapheme_Base # Lo  [49] HANGUL JONGSEONG NIEUN-RIEUL..HANGUL JONGSEONG PHIEUPH-THIEUTH",
text! "F900..FA6D    ; Grapheme_Base # Lo [366] CJK COMPATIBILITY IDEOGRAPH-F900..CJK COMPATIBILITY IDEOGRAPH-FA6D",
text! "FA70..FAD9    ; Grapheme_Base # Lo [106] CJK COMPATIBILITY IDEOGRAPH-FA70..CJK COMPATIBILITY IDEOGRAPH-FAD9",
text! "FB00..FB06    ; Grapheme_Base # L&   [7] LATIN SMALL LIGATURE FF..LATIN SMALL LIGATURE ST",
text! "FB13..FB17    ; Grapheme_Base # L&   [5] ARMENIAN SMALL LIGATURE MEN NOW..ARMENIAN SMALL LIGATURE MEN XEH",
text! "FB1D          ; Grapheme_Base # Lo       HEBREW LETTER YOD WITH HIRIQ",
text! "FB1F..FB28    ; Grapheme_Base # Lo  [10] HEBREW LIGATURE YIDDISH YOD YOD PATAH..HEBREW LETTER WIDE TAV",
text! "FB29          ; Grapheme_Base # Sm       HEBREW LETTER ALTERNATIVE PLUS SIGN",
text! "FB2A..FB36    ; Grapheme_Base # Lo  [13] HEBREW LETTER SHIN WITH SHIN DOT..HEBREW LETTER ZAYIN WITH DAGESH",
text! "FB38..FB3C    ; Grapheme_Base # Lo   [5] HEBREW LETTER TET WITH DAGESH..HEBREW LETTER LAMED WITH DAGESH",
text! "FB3E          ; Grapheme_Base # Lo       HEBREW LETTER MEM WITH DAGESH",
text! "FB40..FB41    ; Grapheme_Base # Lo   [2] HEBREW LETTER NUN WITH DAGESH..HEBREW LETTER SAMEKH WITH DAGESH",
text! "FB43..FB44    ; Grapheme_Base # Lo   [2] HEBREW LETTER FINAL PE WITH DAGESH..HEBREW LETTER PE WITH DAGESH",
text! "FB46..FBB1    ; Grapheme_Base # Lo [108] HEBREW LETTER TSADI WITH DAGESH..ARABIC LETTER YEH BARREE WITH HAMZA ABOVE FINAL FORM",
text! "FBB2..FBC2    ; Grapheme_Base # Sk  [17] ARABIC SYMBOL DOT ABOVE..ARABIC SYMBOL WASLA ABOVE",
text! "FBC3..FBD2    ; Grapheme_Base # So  [16] ARABIC LIGATURE JALLA WA-ALAA..ARABIC LIGATURE ALAYHI AR-RAHMAH",
text! "FBD3..FD3D    ; Grapheme_Base # Lo [363] ARABIC LETTER NG ISOLATED FORM..ARABIC LIGATURE ALEF WITH FATHATAN ISOLATED FORM",
text! "FD3E          ; Grapheme_Base # Pe       ORNATE LEFT PARENTHESIS",
text! "FD3F          ; Grapheme_Base # Ps       ORNATE RIGHT PARENTHESIS",
text! "FD40..FD4F    ; Grapheme_Base # So  [16] ARABIC LIGATURE RAHIMAHU ALLAAH..ARABIC LIGATURE RAHIMAHUM ALLAAH",
text! "FD50..FD8F    ; Grapheme_Base # Lo  [64] ARABIC LIGATURE TEH WITH JEEM WITH MEEM INITIAL FORM..ARABIC LIGATURE MEEM WITH KHAH WITH MEEM INITIAL FORM",
text! "FD90..FD91    ; Grapheme_Base # So   [2] ARABIC LIGATURE RAHMATU ALLAAHI ALAYH..ARABIC LIGATURE RAHMATU ALLAAHI ALAYHAA",
text! "FD92..FDC7    ; Grapheme_Base # Lo  [54] ARABIC LIGATURE MEEM WITH JEEM WITH KHAH INITIAL FORM..ARABIC LIGATURE NOON WITH JEEM WITH YEH FINAL FORM",
text! "FDC8..FDCF    ; Grapheme_Base # So   [8] ARABIC LIGATURE RAHIMAHU ALLAAH TAAALAA..ARABIC LIGATURE SALAAMUHU ALAYNAA",
text! "FDF0..FDFB    ; Grapheme_Base # Lo  [12] ARABIC LIGATURE SALLA USED AS KORANIC STOP SIGN ISOLATED FORM..ARABIC LIGATURE JALLAJALALOUHOU",
text! "FDFC          ; Grapheme_Base # Sc       RIAL SIGN",
text! "FDFD..FDFF    ; Grapheme_Base # So   [3] ARABIC LIGATURE BISMILLAH AR-RAHMAN AR-RAHEEM..ARABIC LIGATURE AZZA WA JALL",
text! "FE10..FE16    ; Grapheme_Base # Po   [7] PRESENTATION FORM FOR VERTICAL COMMA..PRESENTATION FORM FOR VERTICAL QUESTION MARK",
text! "FE17          ; Grapheme_Base # Ps       PRESENTATION FORM FOR VERTICAL LEFT WHITE LENTICULAR BRACKET",
text! "FE18          ; Grapheme_Base # Pe       PRESENTATION FORM FOR VERTICAL RIGHT WHITE LENTICULAR BRAKCET",
text! "FE19          ; Grapheme_Base # Po       PRESENTATION FORM FOR VERTICAL HORIZONTAL ELLIPSIS",
text! "FE30          ; Grapheme_Base # Po       PRESENTATION FORM FOR VERTICAL TWO DOT LEADER",
text! "FE31..FE32    ; Grapheme_Base # Pd   [2] PRESENTATION FORM FOR VERTICAL EM DASH..PRESENTATION FORM FOR VERTICAL EN DASH",
text! "FE33..FE34    ; Grapheme_Base # Pc   [2] PRESENTATION FORM FOR VERTICAL LOW LINE..PRESENTATION FORM FOR VERTICAL WAVY LOW LINE",
text! "FE35          ; Grapheme_Base # Ps       PRESENTATION FORM FOR VERTICAL LEFT PARENTHESIS",
text! "FE36          ; Grapheme_Base # Pe       PRESENTATION FORM FOR VERTICAL RIGHT PARENTHESIS",
text! "FE37          ; Grapheme_Base # Ps       PRESENTATION FORM FOR VERTICAL LEFT CURLY BRACKET",
text! "FE38          ; Grapheme_Base # Pe       PRESENTATION FORM FOR VERTICAL RIGHT CURLY BRACKET",
text! "FE39          ; Grapheme_Base # Ps       PRESENTATION FORM FOR VERTICAL LEFT TORTOISE SHELL BRACKET",
text! "FE3A          ; Grapheme_Base # Pe       PRESENTATION FORM FOR VERTICAL RIGHT TORTOISE SHELL BRACKET",
text! "FE3B          ; Grapheme_Base # Ps       PRESENTATION FORM FOR VERTICAL LEFT BLACK LENTICULAR BRACKET",
text! "FE3C          ; Grapheme_Base # Pe       PRESENTATION FORM FOR VERTICAL RIGHT BLACK LENTICULAR BRACKET",
text! "FE3D          ; Grapheme_Base # Ps       PRESENTATION FORM FOR VERTICAL LEFT DOUBLE ANGLE BRACKET",
text! "FE3E          ; Grapheme_Base # Pe       PRESENTATION FORM FOR VERTICAL RIGHT DOUBLE ANGLE BRACKET",
text! "FE3F          ; Grapheme_Base # Ps       PRESENTATION FORM FOR VERTICAL LEFT ANGLE BRACKET",
text! "FE40          ; Grapheme_Base # Pe       PRESENTATION FORM FOR VERTICAL RIGHT ANGLE BRACKET",
text! "FE41          ; Grapheme_Base # Ps       PRESENTATION FORM FOR VERTICAL LEFT CORNER BRACKET",
text! "FE42          ; Grapheme_Base # Pe       PRESENTATION FORM FOR VERTICAL RIGHT CORNER BRACKET",
text! "FE43          ; Grapheme_Base # Ps       PRESENTATION FORM FOR VERTICAL LEFT WHITE CORNER BRACKET",
text! "FE44          ; Grapheme_Base # Pe       PRESENTATION FORM FOR VERTICAL RIGHT WHITE CORNER BRACKET",
text! "FE45..FE46    ; Grapheme_Base # Po   [2] SESAME DOT..WHITE SESAME DOT",
text! "FE47          ; Grapheme_Base # Ps       PRESENTATION FORM FOR VERTICAL LEFT SQUARE BRACKET",
text! "FE48          ; Grapheme_Base # Pe       PRESENTATION FORM FOR VERTICAL RIGHT SQUARE BRACKET",
text! "FE49..FE4C    ; Grapheme_Base # Po   [4] DASHED OVERLINE..DOUBLE WAVY OVERLINE",
text! "FE4D..FE4F    ; Grapheme_Base # Pc   [3] DASHED LOW LINE..WAVY LOW LINE",
text! "FE50..FE52    ; Grapheme_Base # Po   [3] SMALL COMMA..SMALL FULL STOP",
text! "FE54..FE57    ; Grapheme_Base # Po   [4] SMALL SEMICOLON..SMALL EXCLAMATION MARK",
text! "FE58          ; Grapheme_Base # Pd       SMALL EM DASH",
text! "FE59          ; Grapheme_Base # Ps       SMALL LEFT PARENTHESIS",
text! "FE5A          ; Grapheme_Base # Pe       SMALL RIGHT PARENTHESIS",
text! "FE5B          ; Grapheme_Base # Ps       SMALL LEFT CURLY BRACKET"]

/-- lines 12289-12352 -/
def derivedCore192 : List Nat := [
text! "FE5C          ; Grapheme_Base # Pe       SMALL RIGHT CURLY BRACKET",
text! "FE5D          ; Grapheme_Base # Ps       SMALL LEFT TORTOISE SHELL BRACKET",
text! "FE5E          ; Grapheme_Base # Pe       SMALL RIGHT TORTOISE SHELL BRACKET",
text! "FE5F..FE61    ; Grapheme_Base # Po   [3] SMALL NUMBER SIGN..SMALL ASTERISK",
text! "FE62          ; Grapheme_Base # Sm       SMALL PLUS SIGN",
text! "FE63          ; Grapheme_Base # Pd       SMALL HYPHEN-MINUS",
text! "FE64..FE66    ; Grapheme_Base # Sm   [3] SMALL LESS-THAN SIGN..SMALL EQUALS SIGN",
text! "FE68          ; Grapheme_Base # Po       SMALL REVERSE SOLIDUS",
text! "FE69          ; Grapheme_Base # Sc       SMALL DOLLAR SIGN",
text! "FE6A..FE6B    ; Grapheme_Base # Po   [2] SMALL PERCENT SIGN..SMALL COMMERCIAL AT",
text! "FE70..FE74    ; Grapheme_Base # Lo   [5] ARABIC FATHATAN ISOLATED FORM..ARABIC KASRATAN ISOLATED FORM",
text! "FE76..FEFC    ; Grapheme_Base # Lo [135] ARABIC FATHA ISOLATED FORM..ARABIC LIGATURE LAM WITH ALEF FINAL FORM",
text! "FF01..FF03    ; Grapheme_Base # Po   [3] FULLWIDTH EXCLAMATION MARK..FULLWIDTH NUMBER SIGN",
text! "FF04          ; Grapheme_Base # Sc       FULLWIDTH DOLLAR SIGN",
text! "FF05..FF07    ; Grapheme_Base # Po   [3] FULLWIDTH PERCENT SIGN..FULLWIDTH APOSTROPHE",
text! "FF08          ; Grapheme_Base # Ps       FULLWIDTH LEFT PARENTHESIS",
text! "FF09          ; Grapheme_Base # Pe       FULLWIDTH RIGHT PARENTHESIS",
text! "FF0A          ; Grapheme_Base # Po       FULLWIDTH ASTERISK",
text! "FF0B          ; Grapheme_Base # Sm       FULLWIDTH PLUS SIGN",
text! "FF0C          ; Grapheme_Base # Po       FULLWIDTH COMMA",
text! "FF0D          ; Grapheme_Base # Pd       FULLWIDTH HYPHEN-MINUS",
text! "FF0E..FF0F    ; Grapheme_Base # Po   [2] FULLWIDTH FULL STOP..FULLWIDTH SOLIDUS",
text! "FF10..FF19    ; Grapheme_Base # Nd  [10] FULLWIDTH DIGIT ZERO..FULLWIDTH DIGIT NINE",
text! "FF1A..FF1B    ; Grapheme_Base # Po   [2] FULLWIDTH COLON..FULLWIDTH SEMICOLON",
text! "FF1C..FF1E    ; Grapheme_Base # Sm   [3] FULLWIDTH LESS-THAN SIGN..FULLWIDTH GREATER-THAN SIGN",
text! "FF1F..FF20    ; Grapheme_Base # Po   [2] FULLWIDTH QUESTION MARK..FULLWIDTH COMMERCIAL AT",
text! "FF21..FF3A    ; Grapheme_Base # L&  [26] FULLWIDTH LATIN CAPITAL LETTER A..FULLWIDTH LATIN CAPITAL LETTER Z",
text! "FF3B          ; Grapheme_Base # Ps       FULLWIDTH LEFT SQUARE BRACKET",
text! "FF3C          ; Grapheme_Base # Po       FULLWIDTH REVERSE SOLIDUS",
text! "FF3D          ; Grapheme_Base # Pe       FULLWIDTH RIGHT SQUARE BRACKET",
text! "FF3E          ; Grapheme_Base # Sk       FULLWIDTH CIRCUMFLEX ACCENT",
text! "FF3F          ; Grapheme_Base # Pc       FULLWIDTH LOW LINE",
text! "FF40          ; Grapheme_Base # Sk       FULLWIDTH GRAVE ACCENT",
text! "FF41..FF5A    ; Grapheme_Base # L&  [26] FULLWIDTH LATIN SMALL LETTER A..FULLWIDTH LATIN SMALL LETTER Z",
text! "FF5B          ; Grapheme_Base # Ps       FULLWIDTH LEFT CURLY BRACKET",
text! "FF5C          ; Grapheme_Base # Sm       FULLWIDTH VERTICAL LINE",
text! "FF5D          ; Grapheme_Base # Pe       FULLWIDTH RIGHT CURLY BRACKET",
text! "FF5E          ; Grapheme_Base # Sm       FULLWIDTH TILDE",
text! "FF5F          ; Grapheme_Base # Ps       FULLWIDTH LEFT WHITE PARENTHESIS",
text! "FF60          ; Grapheme_Base # Pe       FULLWIDTH RIGHT WHITE PARENTHESIS",
text! "FF61          ; Grapheme_Base # Po       HALFWIDTH IDEOGRAPHIC FULL STOP",
text! "FF62          ; Grapheme_Base # Ps       HALFWIDTH LEFT CORNER BRACKET",
text! "FF63          ; Grapheme_Base # Pe       HALFWIDTH RIGHT CORNER BRACKET",
text! "FF64..FF65    ; Grapheme_Base # Po   [2] HALFWIDTH IDEOGRAPHIC COMMA..HALFWIDTH KATAKANA MIDDLE DOT",
text! "FF66..FF6F    ; Grapheme_Base # Lo  [10] HALFWIDTH KATAKANA LETTER WO..HALFWIDTH KATAKANA LETTER SMALL TU",
text! "FF70          ; Grapheme_Base # Lm       HALFWIDTH KATAKANA-HIRAGANA PROLONGED SOUND MARK",
text! "FF71..FF9D    ; Grapheme_Base # Lo  [45] HALFWIDTH KATAKANA LETTER A..HALFWIDTH KATAKANA LETTER N",
text! "FFA0..FFBE    ; Grapheme_Base # Lo  [31] HALFWIDTH HANGUL FILLER..HALFWIDTH HANGUL LETTER HIEUH",
text! "FFC2..FFC7    ; Grapheme_Base # Lo   [6] HALFWIDTH HANGUL LETTER A..HALFWIDTH HANGUL LETTER E",
text! "FFCA..FFCF    ; Grapheme_Base # Lo   [6] HALFWIDTH HANGUL LETTER YEO..HALFWIDTH HANGUL LETTER OE",
text! "FFD2..FFD7    ; Grapheme_Base # Lo   [6] HALFWIDTH HANGUL LETTER YO..HALFWIDTH HANGUL LETTER YU",
text! "FFDA..FFDC    ; Grapheme_Base # Lo   [3] HALFWIDTH HANGUL LETTER EU..HALFWIDTH HANGUL LETTER I",
text! "FFE0..FFE1    ; Grapheme_Base # Sc   [2] FULLWIDTH CENT SIGN..FULLWIDTH POUND SIGN",
text! "FFE2          ; Grapheme_Base # Sm       FULLWIDTH NOT SIGN",
text! "FFE3          ; Grapheme_Base # Sk       FULLWIDTH MACRON",
text! "FFE4          ; Grapheme_Base # So       FULLWIDTH BROKEN BAR",
text! "FFE5..FFE6    ; Grapheme_Base # Sc   [2] FULLWIDTH YEN SIGN..FULLWIDTH WON SIGN",
text! "FFE8          ; Grapheme_Base # So       HALFWIDTH FORMS LIGHT VERTICAL",
text! "FFE9..FFEC    ; Grapheme_Base # Sm   [4] HALFWIDTH LEFTWARDS ARROW..HALFWIDTH DOWNWARDS ARROW",
text! "FFED..FFEE    ; Grapheme_Base # So   [2] HALFWIDTH BLACK SQUARE..HALFWIDTH WHITE CIRCLE",
text! "FFFC..FFFD    ; Grapheme_Base # So   [2] OBJECT REPLACEMENT CHARACTER..REPLACEMENT CHARACTER",
text! "10000..1000B  ; Grapheme_Base # Lo  [12] LINEAR B SYLLABLE B008 A..LINEAR B SYLLABLE B046 JE",
text! "1000D..10026  ; Grapheme_Base # Lo  [26] LINEAR B SYLLABLE B036 JO..LINEAR B SYLLABLE B032 QO",
text! "10028..1003A  ; Grapheme_Base # Lo  [19] LINEAR B SYLLABLE B060 RA..LINEAR B SYLLABLE B042 WO"]

/-- lines 12353-12416 -/
def derivedCore193 : List Nat := [
text! "1003C..1003D  ; Grapheme_Base # Lo   [2] LINEAR B SYLLABLE B017 ZA..LINEAR B SYLLABLE B074 ZE",
text! "1003F..1004D  ; Grapheme_Base # Lo  [15] LINEAR B SYLLABLE B020 ZO..LINEAR B SYLLABLE B091 TWO",
text! "10050..1005D  ; Grapheme_Base # Lo  [14] LINEAR B SYMBOL B018..LINEAR B SYMBOL B089",
text! "10080..100FA  ; Grapheme_Base # Lo [123] LINEAR B IDEOGRAM B100 MAN..LINEAR B IDEOGRAM VESSEL B305",
text! "10100..10102  ; Grapheme_Base # Po   [3] AEGEAN WORD SEPARATOR LINE..AEGEAN CHECK MARK",
text! "10107..10133  ; Grapheme_Base # No  [45] AEGEAN NUMBER ONE..AEGEAN NUMBER NINETY THOUSAND",
text! "10137..1013F  ; Grapheme_Base # So   [9] AEGEAN WEIGHT BASE UNIT..AEGEAN MEASURE THIRD SUBUNIT",
text! "10140..10174  ; Grapheme_Base # Nl  [53] GREEK ACROPHONIC ATTIC ONE QUARTER..GREEK ACROPHONIC STRATIAN FIFTY MNAS",
text! "10175..10178  ; Grapheme_Base # No   [4] GREEK ONE HALF SIGN..GREEK THREE QUARTERS SIGN",
text! "10179..10189  ; Grapheme_Base # So  [17] GREEK YEAR SIGN..GREEK TRYBLION BASE SIGN",
text! "1018A..1018B  ; Grapheme_Base # No   [2] GREEK ZERO SIGN..GREEK ONE QUARTER SIGN",
text! "1018C..1018E  ; Grapheme_Base # So   [3] GREEK SINUSOID SIGN..NOMISMA SIGN",
text! "10190..1019C  ; Grapheme_Base # So  [13] ROMAN SEXTANS SIGN..ASCIA SYMBOL",
text! "101A0         ; Grapheme_Base # So       GREEK SYMBOL TAU RHO",
text! "101D0..101FC  ; Grapheme_Base # So  [45] PHAISTOS DISC SIGN PEDESTRIAN..PHAISTOS DISC SIGN WAVY BAND",
text! "10280..1029C  ; Grapheme_Base # Lo  [29] LYCIAN LETTER A..LYCIAN LETTER X",
text! "102A0..102D0  ; Grapheme_Base # Lo  [49] CARIAN LETTER A..CARIAN LETTER UUU3",
text! "102E1..102FB  ; Grapheme_Base # No  [27] COPTIC EPACT DIGIT ONE..COPTIC EPACT NUMBER NINE HUNDRED",
text! "10300..1031F  ; Grapheme_Base # Lo  [32] OLD ITALIC LETTER A..OLD ITALIC LETTER ESS",
text! "10320..10323  ; Grapheme_Base # No   [4] OLD ITALIC NUMERAL ONE..OLD ITALIC NUMERAL FIFTY",
text! "1032D..10340  ; Grapheme_Base # Lo  [20] OLD ITALIC LETTER YE..GOTHIC LETTER PAIRTHRA",
text! "10341         ; Grapheme_Base # Nl       GOTHIC LETTER NINETY",
text! "10342..10349  ; Grapheme_Base # Lo   [8] GOTHIC LETTER RAIDA..GOTHIC LETTER OTHAL",
text! "1034A         ; Grapheme_Base # Nl       GOTHIC LETTER NINE HUNDRED",
text! "10350..10375  ; Grapheme_Base # Lo  [38] OLD PERMIC LETTER AN..OLD PERMIC LETTER IA",
text! "10380..1039D  ; Grapheme_Base # Lo  [30] UGARITIC LETTER ALPA..UGARITIC LETTER SSU",
text! "1039F         ; Grapheme_Base # Po       UGARITIC WORD DIVIDER",
text! "103A0..103C3  ; Grapheme_Base # Lo  [36] OLD PERSIAN SIGN A..OLD PERSIAN SIGN HA",
text! "103C8..103CF  ; Grapheme_Base # Lo   [8] OLD PERSIAN SIGN AURAMAZDAA..OLD PERSIAN SIGN BUUMISH",
text! "103D0         ; Grapheme_Base # Po       OLD PERSIAN WORD DIVIDER",
text! "103D1..103D5  ; Grapheme_Base # Nl   [5] OLD PERSIAN NUMBER ONE..OLD PERSIAN NUMBER HUNDRED",
text! "10400..1044F  ; Grapheme_Base # L&  [80] DESERET CAPITAL LETTER LONG I..DESERET SMALL LETTER EW",
text! "10450..1049D  ; Grapheme_Base # Lo  [78] SHAVIAN LETTER PEEP..OSMANYA LETTER OO",
text! "104A0..104A9  ; Grapheme_Base # Nd  [10] OSMANYA DIGIT ZERO..OSMANYA DIGIT NINE",
text! "104B0..104D3  ; Grapheme_Base # L&  [36] OSAGE CAPITAL LETTER A..OSAGE CAPITAL LETTER ZHA",
text! "104D8..104FB  ; Grapheme_Base # L&  [36] OSAGE SMALL LETTER A..OSAGE SMALL LETTER ZHA",
text! "10500..10527  ; Grapheme_Base # Lo  [40] ELBASAN LETTER A..ELBASAN LETTER KHE",
text! "10530..10563  ; Grapheme_Base # Lo  [52] CAUCASIAN ALBANIAN LETTER ALT..CAUCASIAN ALBANIAN LETTER KIW",
text! "1056F         ; Grapheme_Base # Po       CAUCASIAN ALBANIAN CITATION MARK",
text! "10570..1057A  ; Grapheme_Base # L&  [11] VITHKUQI CAPITAL LETTER A..VITHKUQI CAPITAL LETTER GA",
text! "1057C..1058A  ; Grapheme_Base # L&  [15] VITHKUQI CAPITAL LETTER HA..VITHKUQI CAPITAL LETTER RE",
text! "1058C..10592  ; Grapheme_Base # L&   [7] VITHKUQI CAPITAL LETTER SE..VITHKUQI CAPITAL LETTER XE",
text! "10594..10595  ; Grapheme_Base # L&   [2] VITHKUQI CAPITAL LETTER Y..VITHKUQI CAPITAL LETTER ZE",
text! "10597..105A1  ; Grapheme_Base # L&  [11] VITHKUQI SMALL LETTER A..VITHKUQI SMALL LETTER GA",
text! "105A3..105B1  ; Grapheme_Base # L&  [15] VITHKUQI SMALL LETTER HA..VITHKUQI SMALL LETTER RE",
text! "105B3..105B9  ; Grapheme_Base # L&   [7] VITHKUQI SMALL LETTER SE..VITHKUQI SMALL LETTER XE",
text! "105BB..105BC  ; Grapheme_Base # L&   [2] VITHKUQI SMALL LETTER Y..VITHKUQI SMALL LETTER ZE",
text! "105C0..105F3  ; Grapheme_Base # Lo  [52] TODHRI LETTER A..TODHRI LETTER OO",
text! "10600..10736  ; Grapheme_Base # Lo [311] LINEAR A SIGN AB001..LINEAR A SIGN A664",
text! "10740..10755  ; Grapheme_Base # Lo  [22] LINEAR A SIGN A701 A..LINEAR A SIGN A732 JE",
text! "10760..10767  ; Grapheme_Base # Lo   [8] LINEAR A SIGN A800..LINEAR A SIGN A807",
text! "10780..10785  ; Grapheme_Base # Lm   [6] MODIFIER LETTER SMALL CAPITAL AA..MODIFIER LETTER SMALL B WITH HOOK",
text! "10787..107B0  ; Grapheme_Base # Lm  [42] MODIFIER LETTER SMALL DZ DIGRAPH..MODIFIER LETTER SMALL V WITH RIGHT HOOK",
text! "107B2..107BA  ; Grapheme_Base # Lm   [9] MODIFIER LETTER SMALL CAPITAL Y..MODIFIER LETTER SMALL S WITH CURL",
text! "10800..10805  ; Grapheme_Base # Lo   [6] CYPRIOT SYLLABLE A..CYPRIOT SYLLABLE JA",
text! "10808         ; Grapheme_Base # Lo       CYPRIOT SYLLABLE JO",
text! "1080A..10835  ; Grapheme_Base # Lo  [44] CYPRIOT SYLLABLE KA..CYPRIOT SYLLABLE WO",
text! "10837..10838  ; Grapheme_Base # Lo   [2] CYPRIOT SYLLABLE XA..CYPRIOT SYLLABLE XE",
text! "1083C         ; Grapheme_Base # Lo       CYPRIOT SYLLABLE ZA",
text! "1083F..10855  ; Grapheme_Base # Lo  [23] CYPRIOT SYLLABLE ZO..IMPERIAL ARAMAIC LETTER TAW",
text! "10857         ; Grapheme_Base # Po       IMPERIAL ARAMAIC SECTION SIGN",
text! "10858..1085F  ; Grapheme_Base # No   [8] IMPERIAL ARAMAIC NUMBER ONE..IMPERIAL ARAMAIC NUMBER TEN THOUSAND",
text! "10860..10876  ; Grapheme_Base # Lo  [23] PALMYRENE LETTER ALEPH..PALMYRENE LETTER TAW",
text! "10877..10878  ; Grapheme_Base # So   [2] PALMYRENE LEFT-POINTING FLEURON..PALMYRENE RIGHT-POINTING FLEURON"]

/-- lines 12417-12480 -/
def derivedCore194 : List Nat := [
text! "10879..1087F  ; Grapheme_Base # No   [7] PALMYRENE NUMBER ONE..PALMYRENE NUMBER TWENTY",
text! "10880..1089E  ; Grapheme_Base # Lo  [31] NABATAEAN LETTER FINAL ALEPH..NABATAEAN LETTER TAW",
text! "108A7..108AF  ; Grapheme_Base # No   [9] NABATAEAN NUMBER ONE..NABATAEAN NUMBER ONE HUNDRED",
text! "108E0..108F2  ; Grapheme_Base # Lo  [19] HATRAN LETTER ALEPH..HATRAN LETTER QOPH",
text! "108F4..108F5  ; Grapheme_Base # Lo   [2] HATRAN LETTER SHIN..HATRAN LETTER TAW",
text! "108FB..108FF  ; Grapheme_Base # No   [5] HATRAN NUMBER ONE..HATRAN NUMBER ONE HUNDRED",
text! "10900..10915  ; Grapheme_Base # Lo  [22] PHOENICIAN LETTER ALF..PHOENICIAN LETTER TAU",
text! "10916..1091B  ; Grapheme_Base # No   [6] PHOENICIAN NUMBER ONE..PHOENICIAN NUMBER THREE",
text! "1091F         ; Grapheme_Base # Po       PHOENICIAN WORD SEPARATOR",
text! "10920..10939  ; Grapheme_Base # Lo  [26] LYDIAN LETTER A..LYDIAN LETTER C",
text! "1093F         ; Grapheme_Base # Po       LYDIAN TRIANGULAR MARK",
text! "10940..10959  ; Grapheme_Base # Lo  [26] SIDETIC LETTER N01..SIDETIC LETTER N26",
text! "10980..109B7  ; Grapheme_Base # Lo  [56] MEROITIC HIEROGLYPHIC LETTER A..MEROITIC CURSIVE LETTER DA",
text! "109BC..109BD  ; Grapheme_Base # No   [2] MEROITIC CURSIVE FRACTION ELEVEN TWELFTHS..MEROITIC CURSIVE FRACTION ONE HALF",
text! "109BE..109BF  ; Grapheme_Base # Lo   [2] MEROITIC CURSIVE LOGOGRAM RMT..MEROITIC CURSIVE LOGOGRAM IMN",
text! "109C0..109CF  ; Grapheme_Base # No  [16] MEROITIC CURSIVE NUMBER ONE..MEROITIC CURSIVE NUMBER SEVENTY",
text! "109D2..109FF  ; Grapheme_Base # No  [46] MEROITIC CURSIVE NUMBER ONE HUNDRED..MEROITIC CURSIVE FRACTION TEN TWELFTHS",
text! "10A00         ; Grapheme_Base # Lo       KHAROSHTHI LETTER A",
text! "10A10..10A13  ; Grapheme_Base # Lo   [4] KHAROSHTHI LETTER KA..KHAROSHTHI LETTER GHA",
text! "10A15..10A17  ; Grapheme_Base # Lo   [3] KHAROSHTHI LETTER CA..KHAROSHTHI LETTER JA",
text! "10A19..10A35  ; Grapheme_Base # Lo  [29] KHAROSHTHI LETTER NYA..KHAROSHTHI LETTER VHA",
text! "10A40..10A48  ; Grapheme_Base # No   [9] KHAROSHTHI DIGIT ONE..KHAROSHTHI FRACTION ONE HALF",
text! "10A50..10A58  ; Grapheme_Base # Po   [9] KHAROSHTHI PUNCTUATION DOT..KHAROSHTHI PUNCTUATION LINES",
text! "10A60..10A7C  ; Grapheme_Base # Lo  [29] OLD SOUTH ARABIAN LETTER HE..OLD SOUTH ARABIAN LETTER THETH",
text! "10A7D..10A7E  ; Grapheme_Base # No   [2] OLD SOUTH ARABIAN NUMBER ONE..OLD SOUTH ARABIAN NUMBER FIFTY",
text! "10A7F         ; Grapheme_Base # Po       OLD SOUTH ARABIAN NUMERIC INDICATOR",
text! "10A80..10A9C  ; Grapheme_Base # Lo  [29] OLD NORTH ARABIAN LETTER HEH..OLD NORTH ARABIAN LETTER ZAH",
text! "10A9D..10A9F  ; Grapheme_Base # No   [3] OLD NORTH ARABIAN NUMBER ONE..OLD NORTH ARABIAN NUMBER TWENTY",
text! "10AC0..10AC7  ; Grapheme_Base # Lo   [8] MANICHAEAN LETTER ALEPH..MANICHAEAN LETTER WAW",
text! "10AC8         ; Grapheme_Base # So       MANICHAEAN SIGN UD",
text! "10AC9..10AE4  ; Grapheme_Base # Lo  [28] MANICHAEAN LETTER ZAYIN..MANICHAEAN LETTER TAW",
text! "10AEB..10AEF  ; Grapheme_Base # No   [5] MANICHAEAN NUMBER ONE..MANICHAEAN NUMBER ONE HUNDRED",
text! "10AF0..10AF6  ; Grapheme_Base # Po   [7] MANICHAEAN PUNCTUATION STAR..MANICHAEAN PUNCTUATION LINE FILLER",
text! "10B00..10B35  ; Grapheme_Base # Lo  [54] AVESTAN LETTER A..AVESTAN LETTER HE",
text! "10B39..10B3F  ; Grapheme_Base # Po   [7] AVESTAN ABBREVIATION MARK..LARGE ONE RING OVER TWO RINGS PUNCTUATION",
text! "10B40..10B55  ; Grapheme_Base # Lo  [22] INSCRIPTIONAL PARTHIAN LETTER ALEPH..INSCRIPTIONAL PARTHIAN LETTER TAW",
text! "10B58..10B5F  ; Grapheme_Base # No   [8] INSCRIPTIONAL PARTHIAN NUMBER ONE..INSCRIPTIONAL PARTHIAN NUMBER ONE THOUSAND",
text! "10B60..10B72  ; Grapheme_Base # Lo  [19] INSCRIPTIONAL PAHLAVI LETTER ALEPH..INSCRIPTIONAL PAHLAVI LETTER TAW",
text! "10B78..10B7F  ; Grapheme_Base # No   [8] INSCRIPTIONAL PAHLAVI NUMBER ONE..INSCRIPTIONAL PAHLAVI NUMBER ONE THOUSAND",
text! "10B80..10B91  ; Grapheme_Base # Lo  [18] PSALTER PAHLAVI LETTER ALEPH..PSALTER PAHLAVI LETTER TAW",
text! "10B99..10B9C  ; Grapheme_Base # Po   [4] PSALTER PAHLAVI SECTION MARK..PSALTER PAHLAVI FOUR DOTS WITH DOT",
text! "10BA9..10BAF  ; Grapheme_Base # No   [7] PSALTER PAHLAVI NUMBER ONE..PSALTER PAHLAVI NUMBER ONE HUNDRED",
text! "10C00..10C48  ; Grapheme_Base # Lo  [73] OLD TURKIC LETTER ORKHON A..OLD TURKIC LETTER ORKHON BASH",
text! "10C80..10CB2  ; Grapheme_Base # L&  [51] OLD HUNGARIAN CAPITAL LETTER A..OLD HUNGARIAN CAPITAL LETTER US",
text! "10CC0..10CF2  ; Grapheme_Base # L&  [51] OLD HUNGARIAN SMALL LETTER A..OLD HUNGARIAN SMALL LETTER US",
text! "10CFA..10CFF  ; Grapheme_Base # No   [6] OLD HUNGARIAN NUMBER ONE..OLD HUNGARIAN NUMBER ONE THOUSAND",
text! "10D00..10D23  ; Grapheme_Base # Lo  [36] HANIFI ROHINGYA LETTER A..HANIFI ROHINGYA MARK NA KHONNA",
text! "10D30..10D39  ; Grapheme_Base # Nd  [10] HANIFI ROHINGYA DIGIT ZERO..HANIFI ROHINGYA DIGIT NINE",
text! "10D40..10D49  ; Grapheme_Base # Nd  [10] GARAY DIGIT ZERO..GARAY DIGIT NINE",
text! "10D4A..10D4D  ; Grapheme_Base # Lo   [4] GARAY VOWEL SIGN A..GARAY VOWEL SIGN EE",
text! "10D4E         ; Grapheme_Base # Lm       GARAY VOWEL LENGTH MARK",
text! "10D4F         ; Grapheme_Base # Lo       GARAY SUKUN",
text! "10D50..10D65  ; Grapheme_Base # L&  [22] GARAY CAPITAL LETTER A..GARAY CAPITAL LETTER OLD NA",
text! "10D6E         ; Grapheme_Base # Pd       GARAY HYPHEN",
text! "10D6F         ; Grapheme_Base # Lm       GARAY REDUPLICATION MARK",
text! "10D70..10D85  ; Grapheme_Base # L&  [22] GARAY SMALL LETTER A..GARAY SMALL LETTER OLD NA",
text! "10D8E..10D8F  ; Grapheme_Base # Sm   [2] GARAY PLUS SIGN..GARAY MINUS SIGN",
text! "10E60..10E7E  ; Grapheme_Base # No  [31] RUMI DIGIT ONE..RUMI FRACTION TWO THIRDS",
text! "10E80..10EA9  ; Grapheme_Base # Lo  [42] YEZIDI LETTER ELIF..YEZIDI LETTER ET",
text! "10EAD         ; Grapheme_Base # Pd       YEZIDI HYPHENATION MARK",
text! "10EB0..10EB1  ; Grapheme_Base # Lo   [2] YEZIDI LETTER LAM WITH DOT ABOVE..YEZIDI LETTER YOT WITH CIRCUMFLEX ABOVE",
text! "10EC2..10EC4  ; Grapheme_Base # Lo   [3] ARABIC LETTER DAL WITH TWO DOTS VERTICALLY BELOW..ARABIC LETTER KAF WITH TWO DOTS VERTICALLY BELOW",
text! "10EC5         ; Grapheme_Base # Lm       ARABIC SMALL YEH BARREE WITH TWO DOTS BELOW",
text! "10EC6..10EC7  ; Grapheme_Base # Lo   [2] ARABIC LETTER THIN NOON..ARABIC LETTER YEH WITH FOUR DOTS BELOW"]

/-- lines 12481-12544 -/
def derivedCore195 : List Nat := [
text! "10ED0         ; Grapheme_Base # Po       ARABIC BIBLICAL END OF VERSE",
text! "10ED1..10ED8  ; Grapheme_Base # So   [8] ARABIC LIGATURE ALAYHAA AS-SALAATU WAS-SALAAM..ARABIC LIGATURE NAWWARA ALLAAHU MARQADAH",
text! "10F00..10F1C  ; Grapheme_Base # Lo  [29] OLD SOGDIAN LETTER ALEPH..OLD SOGDIAN LETTER FINAL TAW WITH VERTICAL TAIL",
text! "10F1D..10F26  ; Grapheme_Base # No  [10] OLD SOGDIAN NUMBER ONE..OLD SOGDIAN FRACTION ONE HALF",
text! "10F27         ; Grapheme_Base # Lo       OLD SOGDIAN LIGATURE AYIN-DALETH",
text! "10F30..10F45  ; Grapheme_Base # Lo  [22] SOGDIAN LETTER ALEPH..SOGDIAN INDEPENDENT SHIN",
text! "10F51..10F54  ; Grapheme_Base # No   [4] SOGDIAN NUMBER ONE..SOGDIAN NUMBER ONE HUNDRED",
text! "10F55..10F59  ; Grapheme_Base # Po   [5] SOGDIAN PUNCTUATION TWO VERTICAL BARS..SOGDIAN PUNCTUATION HALF CIRCLE WITH DOT",
text! "10F70..10F81  ; Grapheme_Base # Lo  [18] OLD UYGHUR LETTER ALEPH..OLD UYGHUR LETTER LESH",
text! "10F86..10F89  ; Grapheme_Base # Po   [4] OLD UYGHUR PUNCTUATION BAR..OLD UYGHUR PUNCTUATION FOUR DOTS",
text! "10FB0..10FC4  ; Grapheme_Base # Lo  [21] CHORASMIAN LETTER ALEPH..CHORASMIAN LETTER TAW",
text! "10FC5..10FCB  ; Grapheme_Base # No   [7] CHORASMIAN NUMBER ONE..CHORASMIAN NUMBER ONE HUNDRED",
text! "10FE0..10FF6  ; Grapheme_Base # Lo  [23] ELYMAIC LETTER ALEPH..ELYMAIC LIGATURE ZAYIN-YODH",
text! "11000         ; Grapheme_Base # Mc       BRAHMI SIGN CANDRABINDU",
text! "11002         ; Grapheme_Base # Mc       BRAHMI SIGN VISARGA",
text! "11003..11037  ; Grapheme_Base # Lo  [53] BRAHMI SIGN JIHVAMULIYA..BRAHMI LETTER OLD TAMIL NNNA",
text! "11047..1104D  ; Grapheme_Base # Po   [7] BRAHMI DANDA..BRAHMI PUNCTUATION LOTUS",
text! "11052..11065  ; Grapheme_Base # No  [20] BRAHMI NUMBER ONE..BRAHMI NUMBER ONE THOUSAND",
text! "11066..1106F  ; Grapheme_Base # Nd  [10] BRAHMI DIGIT ZERO..BRAHMI DIGIT NINE",
text! "11071..11072  ; Grapheme_Base # Lo   [2] BRAHMI LETTER OLD TAMIL SHORT E..BRAHMI LETTER OLD TAMIL SHORT O",
text! "11075         ; Grapheme_Base # Lo       BRAHMI LETTER OLD TAMIL LLA",
text! "11082         ; Grapheme_Base # Mc       KAITHI SIGN VISARGA",
text! "11083..110AF  ; Grapheme_Base # Lo  [45] KAITHI LETTER A..KAITHI LETTER HA",
text! "110B0..110B2  ; Grapheme_Base # Mc   [3] KAITHI VOWEL SIGN AA..KAITHI VOWEL SIGN II",
text! "110B7..110B8  ; Grapheme_Base # Mc   [2] KAITHI VOWEL SIGN O..KAITHI VOWEL SIGN AU",
text! "110BB..110BC  ; Grapheme_Base # Po   [2] KAITHI ABBREVIATION SIGN..KAITHI ENUMERATION SIGN",
text! "110BE..110C1  ; Grapheme_Base # Po   [4] KAITHI SECTION MARK..KAITHI DOUBLE DANDA",
text! "110D0..110E8  ; Grapheme_Base # Lo  [25] SORA SOMPENG LETTER SAH..SORA SOMPENG LETTER MAE",
text! "110F0..110F9  ; Grapheme_Base # Nd  [10] SORA SOMPENG DIGIT ZERO..SORA SOMPENG DIGIT NINE",
text! "11103..11126  ; Grapheme_Base # Lo  [36] CHAKMA LETTER AA..CHAKMA LETTER HAA",
text! "1112C         ; Grapheme_Base # Mc       CHAKMA VOWEL SIGN E",
text! "11136..1113F  ; Grapheme_Base # Nd  [10] CHAKMA DIGIT ZERO..CHAKMA DIGIT NINE",
text! "11140..11143  ; Grapheme_Base # Po   [4] CHAKMA SECTION MARK..CHAKMA QUESTION MARK",
text! "11144         ; Grapheme_Base # Lo       CHAKMA LETTER LHAA",
text! "11145..11146  ; Grapheme_Base # Mc   [2] CHAKMA VOWEL SIGN AA..CHAKMA VOWEL SIGN EI",
text! "11147         ; Grapheme_Base # Lo       CHAKMA LETTER VAA",
text! "11150..11172  ; Grapheme_Base # Lo  [35] MAHAJANI LETTER A..MAHAJANI LETTER RRA",
text! "11174..11175  ; Grapheme_Base # Po   [2] MAHAJANI ABBREVIATION SIGN..MAHAJANI SECTION MARK",
text! "11176         ; Grapheme_Base # Lo       MAHAJANI LIGATURE SHRI",
text! "11182         ; Grapheme_Base # Mc       SHARADA SIGN VISARGA",
text! "11183..111B2  ; Grapheme_Base # Lo  [48] SHARADA LETTER A..SHARADA LETTER HA",
text! "111B3..111B5  ; Grapheme_Base # Mc   [3] SHARADA VOWEL SIGN AA..SHARADA VOWEL SIGN II",
text! "111BF         ; Grapheme_Base # Mc       SHARADA VOWEL SIGN AU",
text! "111C1..111C4  ; Grapheme_Base # Lo   [4] SHARADA SIGN AVAGRAHA..SHARADA OM",
text! "111C5..111C8  ; Grapheme_Base # Po   [4] SHARADA DANDA..SHARADA SEPARATOR",
text! "111CD         ; Grapheme_Base # Po       SHARADA SUTRA MARK",
text! "111CE         ; Grapheme_Base # Mc       SHARADA VOWEL SIGN PRISHTHAMATRA E",
text! "111D0..111D9  ; Grapheme_Base # Nd  [10] SHARADA DIGIT ZERO..SHARADA DIGIT NINE",
text! "111DA         ; Grapheme_Base # Lo       SHARADA EKAM",
text! "111DB         ; Grapheme_Base # Po       SHARADA SIGN SIDDHAM",
text! "111DC         ; Grapheme_Base # Lo       SHARADA HEADSTROKE",
text! "111DD..111DF  ; Grapheme_Base # Po   [3] SHARADA CONTINUATION SIGN..SHARADA SECTION MARK-2",
text! "111E1..111F4  ; Grapheme_Base # No  [20] SINHALA ARCHAIC DIGIT ONE..SINHALA ARCHAIC NUMBER ONE THOUSAND",
text! "11200..11211  ; Grapheme_Base # Lo  [18] KHOJKI LETTER A..KHOJKI LETTER JJA",
text! "11213..1122B  ; Grapheme_Base # Lo  [25] KHOJKI LETTER NYA..KHOJKI LETTER LLA",
text! "1122C..1122E  ; Grapheme_Base # Mc   [3] KHOJKI VOWEL SIGN AA..KHOJKI VOWEL SIGN II",
text! "11232..11233  ; Grapheme_Base # Mc   [2] KHOJKI VOWEL SIGN O..KHOJKI VOWEL SIGN AU",
text! "11238..1123D  ; Grapheme_Base # Po   [6] KHOJKI DANDA..KHOJKI ABBREVIATION SIGN",
text! "1123F..11240  ; Grapheme_Base # Lo   [2] KHOJKI LETTER QA..KHOJKI LETTER SHORT I",
text! "11280..11286  ; Grapheme_Base # Lo   [7] MULTANI LETTER A..MULTANI LETTER GA",
text! "11288         ; Grapheme_Base # Lo       MULTANI LETTER GHA",
text! "1128A..1128D  ; Grapheme_Base # Lo   [4] MULTANI LETTER CA..MULTANI LETTER JJA",
text! "1128F..1129D  ; Grapheme_Base # Lo  [15] MULTANI LETTER NYA..MULTANI LETTER BA",
text! "1129F..112A8  ; Grapheme_Base # Lo  [10] MULTANI LETTER BHA..MULTANI LETTER RHA"]

/-- lines 12545-12608 -/
def derivedCore196 : List Nat := [
text! "112A9         ; Grapheme_Base # Po       MULTANI SECTION MARK",
text! "112B0..112DE  ; Grapheme_Base # Lo  [47] KHUDAWADI LETTER A..KHUDAWADI LETTER HA",
text! "112E0..112E2  ; Grapheme_Base # Mc   [3] KHUDAWADI VOWEL SIGN AA..KHUDAWADI VOWEL SIGN II",
text! "112F0..112F9  ; Grapheme_Base # Nd  [10] KHUDAWADI DIGIT ZERO..KHUDAWADI DIGIT NINE",
text! "11302..11303  ; Grapheme_Base # Mc   [2] GRANTHA SIGN ANUSVARA..GRANTHA SIGN VISARGA",
text! "11305..1130C  ; Grapheme_Base # Lo   [8] GRANTHA LETTER A..GRANTHA LETTER VOCALIC L",
text! "1130F..11310  ; Grapheme_Base # Lo   [2] GRANTHA LETTER EE..GRANTHA LETTER AI",
text! "11313..11328  ; Grapheme_Base # Lo  [22] GRANTHA LETTER OO..GRANTHA LETTER NA",
text! "1132A..11330  ; Grapheme_Base # Lo   [7] GRANTHA LETTER PA..GRANTHA LETTER RA",
text! "11332..11333  ; Grapheme_Base # Lo   [2] GRANTHA LETTER LA..GRANTHA LETTER LLA",
text! "11335..11339  ; Grapheme_Base # Lo   [5] GRANTHA LETTER VA..GRANTHA LETTER HA",
text! "1133D         ; Grapheme_Base # Lo       GRANTHA SIGN AVAGRAHA",
text! "1133F         ; Grapheme_Base # Mc       GRANTHA VOWEL SIGN I",
text! "11341..11344  ; Grapheme_Base # Mc   [4] GRANTHA VOWEL SIGN U..GRANTHA VOWEL SIGN VOCALIC RR",
text! "11347..11348  ; Grapheme_Base # Mc   [2] GRANTHA VOWEL SIGN EE..GRANTHA VOWEL SIGN AI",
text! "1134B..1134C  ; Grapheme_Base # Mc   [2] GRANTHA VOWEL SIGN OO..GRANTHA VOWEL SIGN AU",
text! "11350         ; Grapheme_Base # Lo       GRANTHA OM",
text! "1135D..11361  ; Grapheme_Base # Lo   [5] GRANTHA SIGN PLUTA..GRANTHA LETTER VOCALIC LL",
text! "11362..11363  ; Grapheme_Base # Mc   [2] GRANTHA VOWEL SIGN VOCALIC L..GRANTHA VOWEL SIGN VOCALIC LL",
text! "11380..11389  ; Grapheme_Base # Lo  [10] TULU-TIGALARI LETTER A..TULU-TIGALARI LETTER VOCALIC LL",
text! "1138B         ; Grapheme_Base # Lo       TULU-TIGALARI LETTER EE",
text! "1138E         ; Grapheme_Base # Lo       TULU-TIGALARI LETTER AI",
text! "11390..113B5  ; Grapheme_Base # Lo  [38] TULU-TIGALARI LETTER OO..TULU-TIGALARI LETTER LLLA",
text! "113B7         ; Grapheme_Base # Lo       TULU-TIGALARI SIGN AVAGRAHA",
text! "113B9..113BA  ; Grapheme_Base # Mc   [2] TULU-TIGALARI VOWEL SIGN I..TULU-TIGALARI VOWEL SIGN II",
text! "113CA         ; Grapheme_Base # Mc       TULU-TIGALARI SIGN CANDRA ANUNASIKA",
text! "113CC..113CD  ; Grapheme_Base # Mc   [2] TULU-TIGALARI SIGN ANUSVARA..TULU-TIGALARI SIGN VISARGA",
text! "113D1         ; Grapheme_Base # Lo       TULU-TIGALARI REPHA",
text! "113D3         ; Grapheme_Base # Lo       TULU-TIGALARI SIGN PLUTA",
text! "113D4..113D5  ; Grapheme_Base # Po   [2] TULU-TIGALARI DANDA..TULU-TIGALARI DOUBLE DANDA",
text! "113D7..113D8  ; Grapheme_Base # Po   [2] TULU-TIGALARI SIGN OM PUSHPIKA..TULU-TIGALARI SIGN SHRII PUSHPIKA",
text! "11400..11434  ; Grapheme_Base # Lo  [53] NEWA LETTER A..NEWA LETTER HA",
text! "11435..11437  ; Grapheme_Base # Mc   [3] NEWA VOWEL SIGN AA..NEWA VOWEL SIGN II",
text! "11440..11441  ; Grapheme_Base # Mc   [2] NEWA VOWEL SIGN O..NEWA VOWEL SIGN AU",
text! "11445         ; Grapheme_Base # Mc       NEWA SIGN VISARGA",
text! "11447..1144A  ; Grapheme_Base # Lo   [4] NEWA SIGN AVAGRAHA..NEWA SIDDHI",
text! "1144B..1144F  ; Grapheme_Base # Po   [5] NEWA DANDA..NEWA ABBREVIATION SIGN",
text! "11450..11459  ; Grapheme_Base # Nd  [10] NEWA DIGIT ZERO..NEWA DIGIT NINE",
text! "1145A..1145B  ; Grapheme_Base # Po   [2] NEWA DOUBLE COMMA..NEWA PLACEHOLDER MARK",
text! "1145D         ; Grapheme_Base # Po       NEWA INSERTION SIGN",
text! "1145F..11461  ; Grapheme_Base # Lo   [3] NEWA LETTER VEDIC ANUSVARA..NEWA SIGN UPADHMANIYA",
text! "11480..114AF  ; Grapheme_Base # Lo  [48] TIRHUTA ANJI..TIRHUTA LETTER HA",
text! "114B1..114B2  ; Grapheme_Base # Mc   [2] TIRHUTA VOWEL SIGN I..TIRHUTA VOWEL SIGN II",
text! "114B9         ; Grapheme_Base # Mc       TIRHUTA VOWEL SIGN E",
text! "114BB..114BC  ; Grapheme_Base # Mc   [2] TIRHUTA VOWEL SIGN AI..TIRHUTA VOWEL SIGN O",
text! "114BE         ; Grapheme_Base # Mc       TIRHUTA VOWEL SIGN AU",
text! "114C1         ; Grapheme_Base # Mc       TIRHUTA SIGN VISARGA",
text! "114C4..114C5  ; Grapheme_Base # Lo   [2] TIRHUTA SIGN AVAGRAHA..TIRHUTA GVANG",
text! "114C6         ; Grapheme_Base # Po       TIRHUTA ABBREVIATION SIGN",
text! "114C7         ; Grapheme_Base # Lo       TIRHUTA OM",
text! "114D0..114D9  ; Grapheme_Base # Nd  [10] TIRHUTA DIGIT ZERO..TIRHUTA DIGIT NINE",
text! "11580..115AE  ; Grapheme_Base # Lo  [47] SIDDHAM LETTER A..SIDDHAM LETTER HA",
text! "115B0..115B1  ; Grapheme_Base # Mc   [2] SIDDHAM VOWEL SIGN I..SIDDHAM VOWEL SIGN II",
text! "115B8..115BB  ; Grapheme_Base # Mc   [4] SIDDHAM VOWEL SIGN E..SIDDHAM VOWEL SIGN AU",
text! "115BE         ; Grapheme_Base # Mc       SIDDHAM SIGN VISARGA",
text! "115C1..115D7  ; Grapheme_Base # Po  [23] SIDDHAM SIGN SIDDHAM..SIDDHAM SECTION MARK WITH CIRCLES AND FOUR ENCLOSURES",
text! "115D8..115DB  ; Grapheme_Base # Lo   [4] SIDDHAM LETTER THREE-CIRCLE ALTERNATE I..SIDDHAM LETTER ALTERNATE U",
text! "11600..1162F  ; Grapheme_Base # Lo  [48] MODI LETTER A..MODI LETTER LLA",
text! "11630..11632  ; Grapheme_Base # Mc   [3] MODI VOWEL SIGN AA..MODI VOWEL SIGN II",
text! "1163B..1163C  ; Grapheme_Base # Mc   [2] MODI VOWEL SIGN O..MODI VOWEL SIGN AU",
text! "1163E         ; Grapheme_Base # Mc       MODI SIGN VISARGA",
text! "11641..11643  ; Grapheme_Base # Po   [3] MODI DANDA..MODI ABBREVIATION SIGN",
text! "11644         ; Grapheme_Base # Lo       MODI SIGN HUVA",
text! "11650..11659  ; Grapheme_Base # Nd  [10] MODI DIGIT ZERO..MODI DIGIT NINE"]

/-- lines 12609-12672 -/
def derivedCore197 : List Nat := [
text! "11660..1166C  ; Grapheme_Base # Po  [13] MONGOLIAN BIRGA WITH ORNAMENT..MONGOLIAN TURNED SWIRL BIRGA WITH DOUBLE ORNAMENT",
text! "11680..116AA  ; Grapheme_Base # Lo  [43] TAKRI LETTER A..TAKRI LETTER RRA",
text! "116AC         ; Grapheme_Base # Mc       TAKRI SIGN VISARGA",
text! "116AE..116AF  ; Grapheme_Base # Mc   [2] TAKRI VOWEL SIGN I..TAKRI VOWEL SIGN II",
text! "116B8         ; Grapheme_Base # Lo       TAKRI LETTER ARCHAIC KHA",
text! "116B9         ; Grapheme_Base # Po       TAKRI ABBREVIATION SIGN",
text! "116C0..116C9  ; Grapheme_Base # Nd  [10] TAKRI DIGIT ZERO..TAKRI DIGIT NINE",
text! "116D0..116E3  ; Grapheme_Base # Nd  [20] MYANMAR PAO DIGIT ZERO..MYANMAR EASTERN PWO KAREN DIGIT NINE",
text! "11700..1171A  ; Grapheme_Base # Lo  [27] AHOM LETTER KA..AHOM LETTER ALTERNATE BA",
text! "1171E         ; Grapheme_Base # Mc       AHOM CONSONANT SIGN MEDIAL RA",
text! "11720..11721  ; Grapheme_Base # Mc   [2] AHOM VOWEL SIGN A..AHOM VOWEL SIGN AA",
text! "11726         ; Grapheme_Base # Mc       AHOM VOWEL SIGN E",
text! "11730..11739  ; Grapheme_Base # Nd  [10] AHOM DIGIT ZERO..AHOM DIGIT NINE",
text! "1173A..1173B  ; Grapheme_Base # No   [2] AHOM NUMBER TEN..AHOM NUMBER TWENTY",
text! "1173C..1173E  ; Grapheme_Base # Po   [3] AHOM SIGN SMALL SECTION..AHOM SIGN RULAI",
text! "1173F         ; Grapheme_Base # So       AHOM SYMBOL VI",
text! "11740..11746  ; Grapheme_Base # Lo   [7] AHOM LETTER CA..AHOM LETTER LLA",
text! "11800..1182B  ; Grapheme_Base # Lo  [44] DOGRA LETTER A..DOGRA LETTER RRA",
text! "1182C..1182E  ; Grapheme_Base # Mc   [3] DOGRA VOWEL SIGN AA..DOGRA VOWEL SIGN II",
text! "11838         ; Grapheme_Base # Mc       DOGRA SIGN VISARGA",
text! "1183B         ; Grapheme_Base # Po       DOGRA ABBREVIATION SIGN",
text! "118A0..118DF  ; Grapheme_Base # L&  [64] WARANG CITI CAPITAL LETTER NGAA..WARANG CITI SMALL LETTER VIYO",
text! "118E0..118E9  ; Grapheme_Base # Nd  [10] WARANG CITI DIGIT ZERO..WARANG CITI DIGIT NINE",
text! "118EA..118F2  ; Grapheme_Base # No   [9] WARANG CITI NUMBER TEN..WARANG CITI NUMBER NINETY",
text! "118FF..11906  ; Grapheme_Base # Lo   [8] WARANG CITI OM..DIVES AKURU LETTER E",
text! "11909         ; Grapheme_Base # Lo       DIVES AKURU LETTER O",
text! "1190C..11913  ; Grapheme_Base # Lo   [8] DIVES AKURU LETTER KA..DIVES AKURU LETTER JA",
text! "11915..11916  ; Grapheme_Base # Lo   [2] DIVES AKURU LETTER NYA..DIVES AKURU LETTER TTA",
text! "11918..1192F  ; Grapheme_Base # Lo  [24] DIVES AKURU LETTER DDA..DIVES AKURU LETTER ZA",
text! "11931..11935  ; Grapheme_Base # Mc   [5] DIVES AKURU VOWEL SIGN I..DIVES AKURU VOWEL SIGN E",
text! "11937..11938  ; Grapheme_Base # Mc   [2] DIVES AKURU VOWEL SIGN AI..DIVES AKURU VOWEL SIGN O",
text! "1193F         ; Grapheme_Base # Lo       DIVES AKURU PREFIXED NASAL SIGN",
text! "11940         ; Grapheme_Base # Mc       DIVES AKURU MEDIAL YA",
text! "11941         ; Grapheme_Base # Lo       DIVES AKURU INITIAL RA",
text! "11942         ; Grapheme_Base # Mc       DIVES AKURU MEDIAL RA",
text! "11944..11946  ; Grapheme_Base # Po   [3] DIVES AKURU DOUBLE DANDA..DIVES AKURU END OF TEXT MARK",
text! "11950..11959  ; Grapheme_Base # Nd  [10] DIVES AKURU DIGIT ZERO..DIVES AKURU DIGIT NINE",
text! "119A0..119A7  ; Grapheme_Base # Lo   [8] NANDINAGARI LETTER A..NANDINAGARI LETTER VOCALIC RR",
text! "119AA..119D0  ; Grapheme_Base # Lo  [39] NANDINAGARI LETTER E..NANDINAGARI LETTER RRA",
text! "119D1..119D3  ; Grapheme_Base # Mc   [3] NANDINAGARI VOWEL SIGN AA..NANDINAGARI VOWEL SIGN II",
text! "119DC..119DF  ; Grapheme_Base # Mc   [4] NANDINAGARI VOWEL SIGN O..NANDINAGARI SIGN VISARGA",
text! "119E1         ; Grapheme_Base # Lo       NANDINAGARI SIGN AVAGRAHA",
text! "119E2         ; Grapheme_Base # Po       NANDINAGARI SIGN SIDDHAM",
text! "119E3         ; Grapheme_Base # Lo       NANDINAGARI HEADSTROKE",
text! "119E4         ; Grapheme_Base # Mc       NANDINAGARI VOWEL SIGN PRISHTHAMATRA E",
text! "11A00         ; Grapheme_Base # Lo       ZANABAZAR SQUARE LETTER A",
text! "11A0B..11A32  ; Grapheme_Base # Lo  [40] ZANABAZAR SQUARE LETTER KA..ZANABAZAR SQUARE LETTER KSSA",
text! "11A39         ; Grapheme_Base # Mc       ZANABAZAR SQUARE SIGN VISARGA",
text! "11A3A         ; Grapheme_Base # Lo       ZANABAZAR SQUARE CLUSTER-INITIAL LETTER RA",
text! "11A3F..11A46  ; Grapheme_Base # Po   [8] ZANABAZAR SQUARE INITIAL HEAD MARK..ZANABAZAR SQUARE CLOSING DOUBLE-LINED HEAD MARK",
text! "11A50         ; Grapheme_Base # Lo       SOYOMBO LETTER A",
text! "11A57..11A58  ; Grapheme_Base # Mc   [2] SOYOMBO VOWEL SIGN AI..SOYOMBO VOWEL SIGN AU",
text! "11A5C..11A89  ; Grapheme_Base # Lo  [46] SOYOMBO LETTER KA..SOYOMBO CLUSTER-INITIAL LETTER SA",
text! "11A97         ; Grapheme_Base # Mc       SOYOMBO SIGN VISARGA",
text! "11A9A..11A9C  ; Grapheme_Base # Po   [3] SOYOMBO MARK TSHEG..SOYOMBO MARK DOUBLE SHAD",
text! "11A9D         ; Grapheme_Base # Lo       SOYOMBO MARK PLUTA",
text! "11A9E..11AA2  ; Grapheme_Base # Po   [5] SOYOMBO HEAD MARK WITH MOON AND SUN AND TRIPLE FLAME..SOYOMBO TERMINAL MARK-2",
text! "11AB0..11AF8  ; Grapheme_Base # Lo  [73] CANADIAN SYLLABICS NATTILIK HI..PAU CIN HAU GLOTTAL STOP FINAL",
text! "11B00..11B09  ; Grapheme_Base # Po  [10] DEVANAGARI HEAD MARK..DEVANAGARI SIGN MINDU",
text! "11B61         ; Grapheme_Base # Mc       SHARADA VOWEL SIGN OOE",
text! "11B65         ; Grapheme_Base # Mc       SHARADA VOWEL SIGN SHORT O",
text! "11B67         ; Grapheme_Base # Mc       SHARADA VOWEL SIGN CANDRA O",
text! "11BC0..11BE0  ; Grapheme_Base # Lo  [33] SUNUWAR LETTER DEVI..SUNUWAR LETTER KLOKO",
text! "11BE1         ; Grapheme_Base # Po       SUNUWAR SIGN PVO"]

/-- lines 12673-12736 -/
def derivedCore198 : List Nat := [
text! "11BF0..11BF9  ; Grapheme_Base # Nd  [10] SUNUWAR DIGIT ZERO..SUNUWAR DIGIT NINE",
text! "11C00..11C08  ; Grapheme_Base # Lo   [9] BHAIKSUKI LETTER A..BHAIKSUKI LETTER VOCALIC L",
text! "11C0A..11C2E  ; Grapheme_Base # Lo  [37] BHAIKSUKI LETTER E..BHAIKSUKI LETTER HA",
text! "11C2F         ; Grapheme_Base # Mc       BHAIKSUKI VOWEL SIGN AA",
text! "11C3E         ; Grapheme_Base # Mc       BHAIKSUKI SIGN VISARGA",
text! "11C40         ; Grapheme_Base # Lo       BHAIKSUKI SIGN AVAGRAHA",
text! "11C41..11C45  ; Grapheme_Base # Po   [5] BHAIKSUKI DANDA..BHAIKSUKI GAP FILLER-2",
text! "11C50..11C59  ; Grapheme_Base # Nd  [10] BHAIKSUKI DIGIT ZERO..BHAIKSUKI DIGIT NINE",
text! "11C5A..11C6C  ; Grapheme_Base # No  [19] BHAIKSUKI NUMBER ONE..BHAIKSUKI HUNDREDS UNIT MARK",
text! "11C70..11C71  ; Grapheme_Base # Po   [2] MARCHEN HEAD MARK..MARCHEN MARK SHAD",
text! "11C72..11C8F  ; Grapheme_Base # Lo  [30] MARCHEN LETTER KA..MARCHEN LETTER A",
text! "11CA9         ; Grapheme_Base # Mc       MARCHEN SUBJOINED LETTER YA",
text! "11CB1         ; Grapheme_Base # Mc       MARCHEN VOWEL SIGN I",
text! "11CB4         ; Grapheme_Base # Mc       MARCHEN VOWEL SIGN O",
text! "11D00..11D06  ; Grapheme_Base # Lo   [7] MASARAM GONDI LETTER A..MASARAM GONDI LETTER E",
text! "11D08..11D09  ; Grapheme_Base # Lo   [2] MASARAM GONDI LETTER AI..MASARAM GONDI LETTER O",
text! "11D0B..11D30  ; Grapheme_Base # Lo  [38] MASARAM GONDI LETTER AU..MASARAM GONDI LETTER TRA",
text! "11D46         ; Grapheme_Base # Lo       MASARAM GONDI REPHA",
text! "11D50..11D59  ; Grapheme_Base # Nd  [10] MASARAM GONDI DIGIT ZERO..MASARAM GONDI DIGIT NINE",
text! "11D60..11D65  ; Grapheme_Base # Lo   [6] GUNJALA GONDI LETTER A..GUNJALA GONDI LETTER UU",
text! "11D67..11D68  ; Grapheme_Base # Lo   [2] GUNJALA GONDI LETTER EE..GUNJALA GONDI LETTER AI",
text! "11D6A..11D89  ; Grapheme_Base # Lo  [32] GUNJALA GONDI LETTER OO..GUNJALA GONDI LETTER SA",
text! "11D8A..11D8E  ; Grapheme_Base # Mc   [5] GUNJALA GONDI VOWEL SIGN AA..GUNJALA GONDI VOWEL SIGN UU",
text! "11D93..11D94  ; Grapheme_Base # Mc   [2] GUNJALA GONDI VOWEL SIGN OO..GUNJALA GONDI VOWEL SIGN AU",
text! "11D96         ; Grapheme_Base # Mc       GUNJALA GONDI SIGN VISARGA",
text! "11D98         ; Grapheme_Base # Lo       GUNJALA GONDI OM",
text! "11DA0..11DA9  ; Grapheme_Base # Nd  [10] GUNJALA GONDI DIGIT ZERO..GUNJALA GONDI DIGIT NINE",
text! "11DB0..11DD8  ; Grapheme_Base # Lo  [41] TOLONG SIKI LETTER I..TOLONG SIKI LETTER RRH",
text! "11DD9         ; Grapheme_Base # Lm       TOLONG SIKI SIGN SELA",
text! "11DDA..11DDB  ; Grapheme_Base # Lo   [2] TOLONG SIKI SIGN HECAKA..TOLONG SIKI UNGGA",
text! "11DE0..11DE9  ; Grapheme_Base # Nd  [10] TOLONG SIKI DIGIT ZERO..TOLONG SIKI DIGIT NINE",
text! "11EE0..11EF2  ; Grapheme_Base # Lo  [19] MAKASAR LETTER KA..MAKASAR ANGKA",
text! "11EF5..11EF6  ; Grapheme_Base # Mc   [2] MAKASAR VOWEL SIGN E..MAKASAR VOWEL SIGN O",
text! "11EF7..11EF8  ; Grapheme_Base # Po   [2] MAKASAR PASSIMBANG..MAKASAR END OF SECTION",
text! "11F02         ; Grapheme_Base # Lo       KAWI SIGN REPHA",
text! "11F03         ; Grapheme_Base # Mc       KAWI SIGN VISARGA",
text! "11F04..11F10  ; Grapheme_Base # Lo  [13] KAWI LETTER A..KAWI LETTER O",
text! "11F12..11F33  ; Grapheme_Base # Lo  [34] KAWI LETTER KA..KAWI LETTER JNYA",
text! "11F34..11F35  ; Grapheme_Base # Mc   [2] KAWI VOWEL SIGN AA..KAWI VOWEL SIGN ALTERNATE AA",
text! "11F3E..11F3F  ; Grapheme_Base # Mc   [2] KAWI VOWEL SIGN E..KAWI VOWEL SIGN AI",
text! "11F43..11F4F  ; Grapheme_Base # Po  [13] KAWI DANDA..KAWI PUNCTUATION CLOSING SPIRAL",
text! "11F50..11F59  ; Grapheme_Base # Nd  [10] KAWI DIGIT ZERO..KAWI DIGIT NINE",
text! "11FB0         ; Grapheme_Base # Lo       LISU LETTER YHA",
text! "11FC0..11FD4  ; Grapheme_Base # No  [21] TAMIL FRACTION ONE THREE-HUNDRED-AND-TWENTIETH..TAMIL FRACTION DOWNSCALING FACTOR KIIZH",
text! "11FD5..11FDC  ; Grapheme_Base # So   [8] TAMIL SIGN NEL..TAMIL SIGN MUKKURUNI",
text! "11FDD..11FE0  ; Grapheme_Base # Sc   [4] TAMIL SIGN KAACU..TAMIL SIGN VARAAKAN",
text! "11FE1..11FF1  ; Grapheme_Base # So  [17] TAMIL SIGN PAARAM..TAMIL SIGN VAKAIYARAA",
text! "11FFF         ; Grapheme_Base # Po       TAMIL PUNCTUATION END OF TEXT",
text! "12000..12399  ; Grapheme_Base # Lo [922] CUNEIFORM SIGN A..CUNEIFORM SIGN U U",
text! "12400..1246E  ; Grapheme_Base # Nl [111] CUNEIFORM NUMERIC SIGN TWO ASH..CUNEIFORM NUMERIC SIGN NINE U VARIANT FORM",
text! "12470..12474  ; Grapheme_Base # Po   [5] CUNEIFORM PUNCTUATION SIGN OLD ASSYRIAN WORD DIVIDER..CUNEIFORM PUNCTUATION SIGN DIAGONAL QUADCOLON",
text! "12480..12543  ; Grapheme_Base # Lo [196] CUNEIFORM SIGN AB TIMES NUN TENU..CUNEIFORM SIGN ZU5 TIMES THREE DISH TENU",
text! "12F90..12FF0  ; Grapheme_Base # Lo  [97] CYPRO-MINOAN SIGN CM001..CYPRO-MINOAN SIGN CM114",
text! "12FF1..12FF2  ; Grapheme_Base # Po   [2] CYPRO-MINOAN SIGN CM301..CYPRO-MINOAN SIGN CM302",
text! "13000..1342F  ; Grapheme_Base # Lo [1072] EGYPTIAN HIEROGLYPH A001..EGYPTIAN HIEROGLYPH V011D",
text! "13441..13446  ; Grapheme_Base # Lo   [6] EGYPTIAN HIEROGLYPH FULL BLANK..EGYPTIAN HIEROGLYPH WIDE LOST SIGN",
text! "13460..143FA  ; Grapheme_Base # Lo [3995] EGYPTIAN HIEROGLYPH-13460..EGYPTIAN HIEROGLYPH-143FA",
text! "14400..14646  ; Grapheme_Base # Lo [583] ANATOLIAN HIEROGLYPH A001..ANATOLIAN HIEROGLYPH A530",
text! "16100..1611D  ; Grapheme_Base # Lo  [30] GURUNG KHEMA LETTER A..GURUNG KHEMA LETTER SA",
text! "1612A..1612C  ; Grapheme_Base # Mc   [3] GURUNG KHEMA CONSONANT SIGN MEDIAL YA..GURUNG KHEMA CONSONANT SIGN MEDIAL HA",
text! "16130..16139  ; Grapheme_Base # Nd  [10] GURUNG KHEMA DIGIT ZERO..GURUNG KHEMA DIGIT NINE",
text! "16800..16A38  ; Grapheme_Base # Lo [569] BAMUM LETTER PHASE-A NGKUE MFON..BAMUM LETTER PHASE-F VUEQ",
text! "16A40..16A5E  ; Grapheme_Base # Lo  [31] MRO LETTER TA..MRO LETTER TEK",
text! "16A60..16A69  ; Grapheme_Base # Nd  [10] MRO DIGIT ZERO..MRO DIGIT NINE"]

/-- lines 12737-12800 -/
def derivedCore199 : List Nat := [
text! "16A6E..16A6F  ; Grapheme_Base # Po   [2] MRO DANDA..MRO DOUBLE DANDA",
text! "16A70..16ABE  ; Grapheme_Base # Lo  [79] TANGSA LETTER OZ..TANGSA LETTER ZA",
text! "16AC0..16AC9  ; Grapheme_Base # Nd  [10] TANGSA DIGIT ZERO..TANGSA DIGIT NINE",
text! "16AD0..16AED  ; Grapheme_Base # Lo  [30] BASSA VAH LETTER ENNI..BASSA VAH LETTER I",
text! "16AF5         ; Grapheme_Base # Po       BASSA VAH FULL STOP",
text! "16B00..16B2F  ; Grapheme_Base # Lo  [48] PAHAWH HMONG VOWEL KEEB..PAHAWH HMONG CONSONANT CAU",
text! "16B37..16B3B  ; Grapheme_Base # Po   [5] PAHAWH HMONG SIGN VOS THOM..PAHAWH HMONG SIGN VOS FEEM",
text! "16B3C..16B3F  ; Grapheme_Base # So   [4] PAHAWH HMONG SIGN XYEEM NTXIV..PAHAWH HMONG SIGN XYEEM FAIB",
text! "16B40..16B43  ; Grapheme_Base # Lm   [4] PAHAWH HMONG SIGN VOS SEEV..PAHAWH HMONG SIGN IB YAM",
text! "16B44         ; Grapheme_Base # Po       PAHAWH HMONG SIGN XAUS",
text! "16B45         ; Grapheme_Base # So       PAHAWH HMONG SIGN CIM TSOV ROG",
text! "16B50..16B59  ; Grapheme_Base # Nd  [10] PAHAWH HMONG DIGIT ZERO..PAHAWH HMONG DIGIT NINE",
text! "16B5B..16B61  ; Grapheme_Base # No   [7] PAHAWH HMONG NUMBER TENS..PAHAWH HMONG NUMBER TRILLIONS",
text! "16B63..16B77  ; Grapheme_Base # Lo  [21] PAHAWH HMONG SIGN VOS LUB..PAHAWH HMONG SIGN CIM NRES TOS",
text! "16B7D..16B8F  ; Grapheme_Base # Lo  [19] PAHAWH HMONG CLAN SIGN TSHEEJ..PAHAWH HMONG CLAN SIGN VWJ",
text! "16D40..16D42  ; Grapheme_Base # Lm   [3] KIRAT RAI SIGN ANUSVARA..KIRAT RAI SIGN VISARGA",
text! "16D43..16D6A  ; Grapheme_Base # Lo  [40] KIRAT RAI LETTER A..KIRAT RAI VOWEL SIGN AU",
text! "16D6B..16D6C  ; Grapheme_Base # Lm   [2] KIRAT RAI SIGN VIRAMA..KIRAT RAI SIGN SAAT",
text! "16D6D..16D6F  ; Grapheme_Base # Po   [3] KIRAT RAI SIGN YUPI..KIRAT RAI DOUBLE DANDA",
text! "16D70..16D79  ; Grapheme_Base # Nd  [10] KIRAT RAI DIGIT ZERO..KIRAT RAI DIGIT NINE",
text! "16E40..16E7F  ; Grapheme_Base # L&  [64] MEDEFAIDRIN CAPITAL LETTER M..MEDEFAIDRIN SMALL LETTER Y",
text! "16E80..16E96  ; Grapheme_Base # No  [23] MEDEFAIDRIN DIGIT ZERO..MEDEFAIDRIN DIGIT THREE ALTERNATE FORM",
text! "16E97..16E9A  ; Grapheme_Base # Po   [4] MEDEFAIDRIN COMMA..MEDEFAIDRIN EXCLAMATION OH",
text! "16EA0..16EB8  ; Grapheme_Base # L&  [25] BERIA ERFE CAPITAL LETTER ARKAB..BERIA ERFE CAPITAL LETTER AY",
text! "16EBB..16ED3  ; Grapheme_Base # L&  [25] BERIA ERFE SMALL LETTER ARKAB..BERIA ERFE SMALL LETTER AY",
text! "16F00..16F4A  ; Grapheme_Base # Lo  [75] MIAO LETTER PA..MIAO LETTER RTE",
text! "16F50         ; Grapheme_Base # Lo       MIAO LETTER NASALIZATION",
text! "16F51..16F87  ; Grapheme_Base # Mc  [55] MIAO SIGN ASPIRATION..MIAO VOWEL SIGN UI",
text! "16F93..16F9F  ; Grapheme_Base # Lm  [13] MIAO LETTER TONE-2..MIAO LETTER REFORMED TONE-8",
text! "16FE0..16FE1  ; Grapheme_Base # Lm   [2] TANGUT ITERATION MARK..NUSHU ITERATION MARK",
text! "16FE2         ; Grapheme_Base # Po       OLD CHINESE HOOK MARK",
text! "16FE3         ; Grapheme_Base # Lm       OLD CHINESE ITERATION MARK",
text! "16FF2..16FF3  ; Grapheme_Base # Lm   [2] CHINESE SMALL SIMPLIFIED ER..CHINESE SMALL TRADITIONAL ER",
text! "16FF4..16FF6  ; Grapheme_Base # Nl   [3] YANGQIN SIGN SLOW ONE BEAT..YANGQIN SIGN SLOW TWO BEATS",
text! "17000..18CD5  ; Grapheme_Base # Lo [7382] TANGUT IDEOGRAPH-17000..KHITAN SMALL SCRIPT CHARACTER-18CD5",
text! "18CFF..18D1E  ; Grapheme_Base # Lo  [32] KHITAN SMALL SCRIPT CHARACTER-18CFF..TANGUT IDEOGRAPH-18D1E",
text! "18D80..18DF2  ; Grapheme_Base # Lo [115] TANGUT COMPONENT-769..TANGUT COMPONENT-883",
text! "1AFF0..1AFF3  ; Grapheme_Base # Lm   [4] KATAKANA LETTER MINNAN TONE-2..KATAKANA LETTER MINNAN TONE-5",
text! "1AFF5..1AFFB  ; Grapheme_Base # Lm   [7] KATAKANA LETTER MINNAN TONE-7..KATAKANA LETTER MINNAN NASALIZED TONE-5",
text! "1AFFD..1AFFE  ; Grapheme_Base # Lm   [2] KATAKANA LETTER MINNAN NASALIZED TONE-7..KATAKANA LETTER MINNAN NASALIZED TONE-8",
text! "1B000..1B122  ; Grapheme_Base # Lo [291] KATAKANA LETTER ARCHAIC E..KATAKANA LETTER ARCHAIC WU",
text! "1B132         ; Grapheme_Base # Lo       HIRAGANA LETTER SMALL KO",
text! "1B150..1B152  ; Grapheme_Base # Lo   [3] HIRAGANA LETTER SMALL WI..HIRAGANA LETTER SMALL WO",
text! "1B155         ; Grapheme_Base # Lo       KATAKANA LETTER SMALL KO",
text! "1B164..1B167  ; Grapheme_Base # Lo   [4] KATAKANA LETTER SMALL WI..KATAKANA LETTER SMALL N",
text! "1B170..1B2FB  ; Grapheme_Base # Lo [396] NUSHU CHARACTER-1B170..NUSHU CHARACTER-1B2FB",
text! "1BC00..1BC6A  ; Grapheme_Base # Lo [107] DUPLOYAN LETTER H..DUPLOYAN LETTER VOCALIC M",
text! "1BC70..1BC7C  ; Grapheme_Base # Lo  [13] DUPLOYAN AFFIX LEFT HORIZONTAL SECANT..DUPLOYAN AFFIX ATTACHED TANGENT HOOK",
text! "1BC80..1BC88  ; Grapheme_Base # Lo   [9] DUPLOYAN AFFIX HIGH ACUTE..DUPLOYAN AFFIX HIGH VERTICAL",
text! "1BC90..1BC99  ; Grapheme_Base # Lo  [10] DUPLOYAN AFFIX LOW ACUTE..DUPLOYAN AFFIX LOW ARROW",
text! "1BC9C         ; Grapheme_Base # So       DUPLOYAN SIGN O WITH CROSS",
text! "1BC9F         ; Grapheme_Base # Po       DUPLOYAN PUNCTUATION CHINOOK FULL STOP",
text! "1CC00..1CCEF  ; Grapheme_Base # So [240] UP-POINTING GO-KART..OUTLINED LATIN CAPITAL LETTER Z",
text! "1CCF0..1CCF9  ; Grapheme_Base # Nd  [10] OUTLINED DIGIT ZERO..OUTLINED DIGIT NINE",
text! "1CCFA..1CCFC  ; Grapheme_Base # So   [3] SNAKE SYMBOL..NOSE SYMBOL",
text! "1CD00..1CEB3  ; Grapheme_Base # So [436] BLOCK OCTANT-3..BLACK RIGHT TRIANGLE CARET",
text! "1CEBA..1CED0  ; Grapheme_Base # So  [23] FRAGILE SYMBOL..LEUKOTHEA",
text! "1CEE0..1CEEF  ; Grapheme_Base # So  [16] GEOMANTIC FIGURE POPULUS..GEOMANTIC FIGURE VIA",
text! "1CEF0         ; Grapheme_Base # Sm       MEDIUM SMALL WHITE CIRCLE WITH HORIZONTAL BAR",
text! "1CF50..1CFC3  ; Grapheme_Base # So [116] ZNAMENNY NEUME KRYUK..ZNAMENNY NEUME PAUK",
text! "1D000..1D0F5  ; Grapheme_Base # So [246] BYZANTINE MUSICAL SYMBOL PSILI..BYZANTINE MUSICAL SYMBOL GORGON NEO KATO",
text! "1D100..1D126  ; Grapheme_Base # So  [39] MUSICAL SYMBOL SINGLE BARLINE..MUSICAL SYMBOL DRUM CLEF-2",
text! "1D129..1D164  ; Grapheme_Base # So  [60] MUSICAL SYMBOL MULTIPLE MEASURE REST..MUSICAL SYMBOL ONE HUNDRED TWENTY-EIGHTH NOTE",
text! "1D16A..1D16C  ; Grapheme_Base # So   [3] MUSICAL SYMBOL FINGERED TREMOLO-1..MUSICAL SYMBOL FINGERED TREMOLO-3"]

/-- lines 12801-12864 -/
def derivedCore200 : List Nat := [
text! "1D183..1D184  ; Grapheme_Base # So   [2] MUSICAL SYMBOL ARPEGGIATO UP..MUSICAL SYMBOL ARPEGGIATO DOWN",
text! "1D18C..1D1A9  ; Grapheme_Base # So  [30] MUSICAL SYMBOL RINFORZANDO..MUSICAL SYMBOL DEGREE SLASH",
text! "1D1AE..1D1EA  ; Grapheme_Base # So  [61] MUSICAL SYMBOL PEDAL MARK..MUSICAL SYMBOL KORON",
text! "1D200..1D241  ; Grapheme_Base # So  [66] GREEK VOCAL NOTATION SYMBOL-1..GREEK INSTRUMENTAL NOTATION SYMBOL-54",
text! "1D245         ; Grapheme_Base # So       GREEK MUSICAL LEIMMA",
text! "1D2C0..1D2D3  ; Grapheme_Base # No  [20] KAKTOVIK NUMERAL ZERO..KAKTOVIK NUMERAL NINETEEN",
text! "1D2E0..1D2F3  ; Grapheme_Base # No  [20] MAYAN NUMERAL ZERO..MAYAN NUMERAL NINETEEN",
text! "1D300..1D356  ; Grapheme_Base # So  [87] MONOGRAM FOR EARTH..TETRAGRAM FOR FOSTERING",
text! "1D360..1D378  ; Grapheme_Base # No  [25] COUNTING ROD UNIT DIGIT ONE..TALLY MARK FIVE",
text! "1D400..1D454  ; Grapheme_Base # L&  [85] MATHEMATICAL BOLD CAPITAL A..MATHEMATICAL ITALIC SMALL G",
text! "1D456..1D49C  ; Grapheme_Base # L&  [71] MATHEMATICAL ITALIC SMALL I..MATHEMATICAL SCRIPT CAPITAL A",
text! "1D49E..1D49F  ; Grapheme_Base # L&   [2] MATHEMATICAL SCRIPT CAPITAL C..MATHEMATICAL SCRIPT CAPITAL D",
text! "1D4A2         ; Grapheme_Base # L&       MATHEMATICAL SCRIPT CAPITAL G",
text! "1D4A5..1D4A6  ; Grapheme_Base # L&   [2] MATHEMATICAL SCRIPT CAPITAL J..MATHEMATICAL SCRIPT CAPITAL K",
text! "1D4A9..1D4AC  ; Grapheme_Base # L&   [4] MATHEMATICAL SCRIPT CAPITAL N..MATHEMATICAL SCRIPT CAPITAL Q",
text! "1D4AE..1D4B9  ; Grapheme_Base # L&  [12] MATHEMATICAL SCRIPT CAPITAL S..MATHEMATICAL SCRIPT SMALL D",
text! "1D4BB         ; Grapheme_Base # L&       MATHEMATICAL SCRIPT SMALL F",
text! "1D4BD..1D4C3  ; Grapheme_Base # L&   [7] MATHEMATICAL SCRIPT SMALL H..MATHEMATICAL SCRIPT SMALL N",
text! "1D4C5..1D505  ; Grapheme_Base # L&  [65] MATHEMATICAL SCRIPT SMALL P..MATHEMATICAL FRAKTUR CAPITAL B",
text! "1D507..1D50A  ; Grapheme_Base # L&   [4] MATHEMATICAL FRAKTUR CAPITAL D..MATHEMATICAL FRAKTUR CAPITAL G",
text! "1D50D..1D514  ; Grapheme_Base # L&   [8] MATHEMATICAL FRAKTUR CAPITAL J..MATHEMATICAL FRAKTUR CAPITAL Q",
text! "1D516..1D51C  ; Grapheme_Base # L&   [7] MATHEMATICAL FRAKTUR CAPITAL S..MATHEMATICAL FRAKTUR CAPITAL Y",
text! "1D51E..1D539  ; Grapheme_Base # L&  [28] MATHEMATICAL FRAKTUR SMALL A..MATHEMATICAL DOUBLE-STRUCK CAPITAL B",
text! "1D53B..1D53E  ; Grapheme_Base # L&   [4] MATHEMATICAL DOUBLE-STRUCK CAPITAL D..MATHEMATICAL DOUBLE-STRUCK CAPITAL G",
text! "1D540..1D544  ; Grapheme_Base # L&   [5] MATHEMATICAL DOUBLE-STRUCK CAPITAL I..MATHEMATICAL DOUBLE-STRUCK CAPITAL M",
text! "1D546         ; Grapheme_Base # L&       MATHEMATICAL DOUBLE-STRUCK CAPITAL O",
text! "1D54A..1D550  ; Grapheme_Base # L&   [7] MATHEMATICAL DOUBLE-STRUCK CAPITAL S..MATHEMATICAL DOUBLE-STRUCK CAPITAL Y",
text! "1D552..1D6A5  ; Grapheme_Base # L& [340] MATHEMATICAL DOUBLE-STRUCK SMALL A..MATHEMATICAL ITALIC SMALL DOTLESS J",
text! "1D6A8..1D6C0  ; Grapheme_Base # L&  [25] MATHEMATICAL BOLD CAPITAL ALPHA..MATHEMATICAL BOLD CAPITAL OMEGA",
text! "1D6C1         ; Grapheme_Base # Sm       MATHEMATICAL BOLD NABLA",
text! "1D6C2..1D6DA  ; Grapheme_Base # L&  [25] MATHEMATICAL BOLD SMALL ALPHA..MATHEMATICAL BOLD SMALL OMEGA",
text! "1D6DB         ; Grapheme_Base # Sm       MATHEMATICAL BOLD PARTIAL DIFFERENTIAL",
text! "1D6DC..1D6FA  ; Grapheme_Base # L&  [31] MATHEMATICAL BOLD EPSILON SYMBOL..MATHEMATICAL ITALIC CAPITAL OMEGA",
text! "1D6FB         ; Grapheme_Base # Sm       MATHEMATICAL ITALIC NABLA",
text! "1D6FC..1D714  ; Grapheme_Base # L&  [25] MATHEMATICAL ITALIC SMALL ALPHA..MATHEMATICAL ITALIC SMALL OMEGA",
text! "1D715         ; Grapheme_Base # Sm       MATHEMATICAL ITALIC PARTIAL DIFFERENTIAL",
text! "1D716..1D734  ; Grapheme_Base # L&  [31] MATHEMATICAL ITALIC EPSILON SYMBOL..MATHEMATICAL BOLD ITALIC CAPITAL OMEGA",
text! "1D735         ; Grapheme_Base # Sm       MATHEMATICAL BOLD ITALIC NABLA",
text! "1D736..1D74E  ; Grapheme_Base # L&  [25] MATHEMATICAL BOLD ITALIC SMALL ALPHA..MATHEMATICAL BOLD ITALIC SMALL OMEGA",
text! "1D74F         ; Grapheme_Base # Sm       MATHEMATICAL BOLD ITALIC PARTIAL DIFFERENTIAL",
text! "1D750..1D76E  ; Grapheme_Base # L&  [31] MATHEMATICAL BOLD ITALIC EPSILON SYMBOL..MATHEMATICAL SANS-SERIF BOLD CAPITAL OMEGA",
text! "1D76F         ; Grapheme_Base # Sm       MATHEMATICAL SANS-SERIF BOLD NABLA",
text! "1D770..1D788  ; Grapheme_Base # L&  [25] MATHEMATICAL SANS-SERIF BOLD SMALL ALPHA..MATHEMATICAL SANS-SERIF BOLD SMALL OMEGA",
text! "1D789         ; Grapheme_Base # Sm       MATHEMATICAL SANS-SERIF BOLD PARTIAL DIFFERENTIAL",
text! "1D78A..1D7A8  ; Grapheme_Base # L&  [31] MATHEMATICAL SANS-SERIF BOLD EPSILON SYMBOL..MATHEMATICAL SANS-SERIF BOLD ITALIC CAPITAL OMEGA",
text! "1D7A9         ; Grapheme_Base # Sm       MATHEMATICAL SANS-SERIF BOLD ITALIC NABLA",
text! "1D7AA..1D7C2  ; Grapheme_Base # L&  [25] MATHEMATICAL SANS-SERIF BOLD ITALIC SMALL ALPHA..MATHEMATICAL SANS-SERIF BOLD ITALIC SMALL OMEGA",
text! "1D7C3         ; Grapheme_Base # Sm       MATHEMATICAL SANS-SERIF BOLD ITALIC PARTIAL DIFFERENTIAL",
text! "1D7C4..1D7CB  ; Grapheme_Base # L&   [8] MATHEMATICAL SANS-SERIF BOLD ITALIC EPSILON SYMBOL..MATHEMATICAL BOLD SMALL DIGAMMA",
text! "1D7CE..1D7FF  ; Grapheme_Base # Nd  [50] MATHEMATICAL BOLD DIGIT ZERO..MATHEMATICAL MONOSPACE DIGIT NINE",
text! "1D800..1D9FF  ; Grapheme_Base # So [512] SIGNWRITING HAND-FIST INDEX..SIGNWRITING HEAD",
text! "1DA37..1DA3A  ; Grapheme_Base # So   [4] SIGNWRITING AIR BLOW SMALL ROTATIONS..SIGNWRITING BREATH EXHALE",
text! "1DA6D..1DA74  ; Grapheme_Base # So   [8] SIGNWRITING SHOULDER HIP SPINE..SIGNWRITING TORSO-FLOORPLANE TWISTING",
text! "1DA76..1DA83  ; Grapheme_Base # So  [14] SIGNWRITING LIMB COMBINATION..SIGNWRITING LOCATION DEPTH",
text! "1DA85..1DA86  ; Grapheme_Base # So   [2] SIGNWRITING LOCATION TORSO..SIGNWRITING LOCATION LIMBS DIGITS",
text! "1DA87..1DA8B  ; Grapheme_Base # Po   [5] SIGNWRITING COMMA..SIGNWRITING PARENTHESIS",
text! "1DF00..1DF09  ; Grapheme_Base # L&  [10] LATIN SMALL LETTER FENG DIGRAPH WITH TRILL..LATIN SMALL LETTER T WITH HOOK AND RETROFLEX HOOK",
text! "1DF0A         ; Grapheme_Base # Lo       LATIN LETTER RETROFLEX CLICK WITH RETROFLEX HOOK",
text! "1DF0B..1DF1E  ; Grapheme_Base # L&  [20] LATIN SMALL LETTER ESH WITH DOUBLE BAR..LATIN SMALL LETTER S WITH CURL",
text! "1DF25..1DF2A  ; Grapheme_Base # L&   [6] LATIN SMALL LETTER D WITH MID-HEIGHT LEFT HOOK..LATIN SMALL LETTER T WITH MID-HEIGHT LEFT HOOK",
text! "1E030..1E06D  ; Grapheme_Base # Lm  [62] MODIFIER LETTER CYRILLIC SMALL A..MODIFIER LETTER CYRILLIC SMALL STRAIGHT U WITH STROKE",
text! "1E100..1E12C  ; Grapheme_Base # Lo  [45] NYIAKENG PUACHUE HMONG LETTER MA..NYIAKENG PUACHUE HMONG LETTER W",
text! "1E137..1E13D  ; Grapheme_Base # Lm   [7] NYIAKENG PUACHUE HMONG SIGN FOR PERSON..NYIAKENG PUACHUE HMONG SYLLABLE LENGTHENER",
text! "1E140..1E149  ; Grapheme_Base # Nd  [10] NYIAKENG PUACHUE HMONG DIGIT ZERO..NYIAKENG PUACHUE HMONG DIGIT NINE"]

/-- lines 12865-12928 -/
def derivedCore201 : List Nat := [
text! "1E14E         ; Grapheme_Base # Lo       NYIAKENG PUACHUE HMONG LOGOGRAM NYAJ",
text! "1E14F         ; Grapheme_Base # So       NYIAKENG PUACHUE HMONG CIRCLED CA",
text! "1E290..1E2AD  ; Grapheme_Base # Lo  [30] TOTO LETTER PA..TOTO LETTER A",
text! "1E2C0..1E2EB  ; Grapheme_Base # Lo  [44] WANCHO LETTER AA..WANCHO LETTER YIH",
text! "1E2F0..1E2F9  ; Grapheme_Base # Nd  [10] WANCHO DIGIT ZERO..WANCHO DIGIT NINE",
text! "1E2FF         ; Grapheme_Base # Sc       WANCHO NGUN SIGN",
text! "1E4D0..1E4EA  ; Grapheme_Base # Lo  [27] NAG MUNDARI LETTER O..NAG MUNDARI LETTER ELL",
text! "1E4EB         ; Grapheme_Base # Lm       NAG MUNDARI SIGN OJOD",
text! "1E4F0..1E4F9  ; Grapheme_Base # Nd  [10] NAG MUNDARI DIGIT ZERO..NAG MUNDARI DIGIT NINE",
text! "1E5D0..1E5ED  ; Grapheme_Base # Lo  [30] OL ONAL LETTER O..OL ONAL LETTER EG",
text! "1E5F0         ; Grapheme_Base # Lo       OL ONAL SIGN HODDOND",
text! "1E5F1..1E5FA  ; Grapheme_Base # Nd  [10] OL ONAL DIGIT ZERO..OL ONAL DIGIT NINE",
text! "1E5FF         ; Grapheme_Base # Po       OL ONAL ABBREVIATION SIGN",
text! "1E6C0..1E6DE  ; Grapheme_Base # Lo  [31] TAI YO LETTER LOW KO..TAI YO LETTER HIGH KVO",
text! "1E6E0..1E6E2  ; Grapheme_Base # Lo   [3] TAI YO LETTER AA..TAI YO LETTER UE",
text! "1E6E4..1E6E5  ; Grapheme_Base # Lo   [2] TAI YO LETTER U..TAI YO LETTER AE",
text! "1E6E7..1E6ED  ; Grapheme_Base # Lo   [7] TAI YO LETTER O..TAI YO LETTER AUE",
text! "1E6F0..1E6F4  ; Grapheme_Base # Lo   [5] TAI YO LETTER AN..TAI YO LETTER AP",
text! "1E6FE         ; Grapheme_Base # Lo       TAI YO SYMBOL MUEANG",
text! "1E6FF         ; Grapheme_Base # Lm       TAI YO XAM LAI",
text! "1E7E0..1E7E6  ; Grapheme_Base # Lo   [7] ETHIOPIC SYLLABLE HHYA..ETHIOPIC SYLLABLE HHYO",
text! "1E7E8..1E7EB  ; Grapheme_Base # Lo   [4] ETHIOPIC SYLLABLE GURAGE HHWA..ETHIOPIC SYLLABLE HHWE",
text! "1E7ED..1E7EE  ; Grapheme_Base # Lo   [2] ETHIOPIC SYLLABLE GURAGE MWI..ETHIOPIC SYLLABLE GURAGE MWEE",
text! "1E7F0..1E7FE  ; Grapheme_Base # Lo  [15] ETHIOPIC SYLLABLE GURAGE QWI..ETHIOPIC SYLLABLE GURAGE PWEE",
text! "1E800..1E8C4  ; Grapheme_Base # Lo [197] MENDE KIKAKUI SYLLABLE M001 KI..MENDE KIKAKUI SYLLABLE M060 NYON",
text! "1E8C7..1E8CF  ; Grapheme_Base # No   [9] MENDE KIKAKUI DIGIT ONE..MENDE KIKAKUI DIGIT NINE",
text! "1E900..1E943  ; Grapheme_Base # L&  [68] ADLAM CAPITAL LETTER ALIF..ADLAM SMALL LETTER SHA",
text! "1E94B         ; Grapheme_Base # Lm       ADLAM NASALIZATION MARK",
text! "1E950..1E959  ; Grapheme_Base # Nd  [10] ADLAM DIGIT ZERO..ADLAM DIGIT NINE",
text! "1E95E..1E95F  ; Grapheme_Base # Po   [2] ADLAM INITIAL EXCLAMATION MARK..ADLAM INITIAL QUESTION MARK",
text! "1EC71..1ECAB  ; Grapheme_Base # No  [59] INDIC SIYAQ NUMBER ONE..INDIC SIYAQ NUMBER PREFIXED NINE",
text! "1ECAC         ; Grapheme_Base # So       INDIC SIYAQ PLACEHOLDER",
text! "1ECAD..1ECAF  ; Grapheme_Base # No   [3] INDIC SIYAQ FRACTION ONE QUARTER..INDIC SIYAQ FRACTION THREE QUARTERS",
text! "1ECB0         ; Grapheme_Base # Sc       INDIC SIYAQ RUPEE MARK",
text! "1ECB1..1ECB4  ; Grapheme_Base # No   [4] INDIC SIYAQ NUMBER ALTERNATE ONE..INDIC SIYAQ ALTERNATE LAKH MARK",
text! "1ED01..1ED2D  ; Grapheme_Base # No  [45] OTTOMAN SIYAQ NUMBER ONE..OTTOMAN SIYAQ NUMBER NINETY THOUSAND",
text! "1ED2E         ; Grapheme_Base # So       OTTOMAN SIYAQ MARRATAN",
text! "1ED2F..1ED3D  ; Grapheme_Base # No  [15] OTTOMAN SIYAQ ALTERNATE NUMBER TWO..OTTOMAN SIYAQ FRACTION ONE SIXTH",
text! "1EE00..1EE03  ; Grapheme_Base # Lo   [4] ARABIC MATHEMATICAL ALEF..ARABIC MATHEMATICAL DAL",
text! "1EE05..1EE1F  ; Grapheme_Base # Lo  [27] ARABIC MATHEMATICAL WAW..ARABIC MATHEMATICAL DOTLESS QAF",
text! "1EE21..1EE22  ; Grapheme_Base # Lo   [2] ARABIC MATHEMATICAL INITIAL BEH..ARABIC MATHEMATICAL INITIAL JEEM",
text! "1EE24         ; Grapheme_Base # Lo       ARABIC MATHEMATICAL INITIAL HEH",
text! "1EE27         ; Grapheme_Base # Lo       ARABIC MATHEMATICAL INITIAL HAH",
text! "1EE29..1EE32  ; Grapheme_Base # Lo  [10] ARABIC MATHEMATICAL INITIAL YEH..ARABIC MATHEMATICAL INITIAL QAF",
text! "1EE34..1EE37  ; Grapheme_Base # Lo   [4] ARABIC MATHEMATICAL INITIAL SHEEN..ARABIC MATHEMATICAL INITIAL KHAH",
text! "1EE39         ; Grapheme_Base # Lo       ARABIC MATHEMATICAL INITIAL DAD",
text! "1EE3B         ; Grapheme_Base # Lo       ARABIC MATHEMATICAL INITIAL GHAIN",
text! "1EE42         ; Grapheme_Base # Lo       ARABIC MATHEMATICAL TAILED JEEM",
text! "1EE47         ; Grapheme_Base # Lo       ARABIC MATHEMATICAL TAILED HAH",
text! "1EE49         ; Grapheme_Base # Lo       ARABIC MATHEMATICAL TAILED YEH",
text! "1EE4B         ; Grapheme_Base # Lo       ARABIC MATHEMATICAL TAILED LAM",
text! "1EE4D..1EE4F  ; Grapheme_Base # Lo   [3] ARABIC MATHEMATICAL TAILED NOON..ARABIC MATHEMATICAL TAILED AIN",
text! "1EE51..1EE52  ; Grapheme_Base # Lo   [2] ARABIC MATHEMATICAL TAILED SAD..ARABIC MATHEMATICAL TAILED QAF",
text! "1EE54         ; Grapheme_Base # Lo       ARABIC MATHEMATICAL TAILED SHEEN",
text! "1EE57         ; Grapheme_Base # Lo       ARABIC MATHEMATICAL TAILED KHAH",
text! "1EE59         ; Grapheme_Base # Lo       ARABIC MATHEMATICAL TAILED DAD",
text! "1EE5B         ; Grapheme_Base # Lo       ARABIC MATHEMATICAL TAILED GHAIN",
text! "1EE5D         ; Grapheme_Base # Lo       ARABIC MATHEMATICAL TAILED DOTLESS NOON",
text! "1EE5F         ; Grapheme_Base # Lo       ARABIC MATHEMATICAL TAILED DOTLESS QAF",
text! "1EE61..1EE62  ; Grapheme_Base # Lo   [2] ARABIC MATHEMATICAL STRETCHED BEH..ARABIC MATHEMATICAL STRETCHED JEEM",
text! "1EE64         ; Grapheme_Base # Lo       ARABIC MATHEMATICAL STRETCHED HEH",
text! "1EE67..1EE6A  ; Grapheme_Base # Lo   [4] ARABIC MATHEMATICAL STRETCHED HAH..ARABIC MATHEMATICAL STRETCHED KAF",
text! "1EE6C..1EE72  ; Grapheme_Base # Lo   [7] ARABIC MATHEMATICAL STRETCHED MEEM..ARABIC MATHEMATICAL STRETCHED QAF",
text! "1EE74..1EE77  ; Grapheme_Base # Lo   [4] ARABIC MATHEMATICAL STRETCHED SHEEN..ARABIC MATHEMATICAL STRETCHED KHAH"]

/-- lines 12929-12992 -/
def derivedCore202 : List Nat := [
text! "1EE79..1EE7C  ; Grapheme_Base # Lo   [4] ARABIC MATHEMATICAL STRETCHED DAD..ARABIC MATHEMATICAL STRETCHED DOTLESS BEH",
text! "1EE7E         ; Grapheme_Base # Lo       ARABIC MATHEMATICAL STRETCHED DOTLESS FEH",
text! "1EE80..1EE89  ; Grapheme_Base # Lo  [10] ARABIC MATHEMATICAL LOOPED ALEF..ARABIC MATHEMATICAL LOOPED YEH",
text! "1EE8B..1EE9B  ; Grapheme_Base # Lo  [17] ARABIC MATHEMATICAL LOOPED LAM..ARABIC MATHEMATICAL LOOPED GHAIN",
text! "1EEA1..1EEA3  ; Grapheme_Base # Lo   [3] ARABIC MATHEMATICAL DOUBLE-STRUCK BEH..ARABIC MATHEMATICAL DOUBLE-STRUCK DAL",
text! "1EEA5..1EEA9  ; Grapheme_Base # Lo   [5] ARABIC MATHEMATICAL DOUBLE-STRUCK WAW..ARABIC MATHEMATICAL DOUBLE-STRUCK YEH",
text! "1EEAB..1EEBB  ; Grapheme_Base # Lo  [17] ARABIC MATHEMATICAL DOUBLE-STRUCK LAM..ARABIC MATHEMATICAL DOUBLE-STRUCK GHAIN",
text! "1EEF0..1EEF1  ; Grapheme_Base # Sm   [2] ARABIC MATHEMATICAL OPERATOR MEEM WITH HAH WITH TATWEEL..ARABIC MATHEMATICAL OPERATOR HAH WITH DAL",
text! "1F000..1F02B  ; Grapheme_Base # So  [44] MAHJONG TILE EAST WIND..MAHJONG TILE BACK",
text! "1F030..1F093  ; Grapheme_Base # So [100] DOMINO TILE HORIZONTAL BACK..DOMINO TILE VERTICAL-06-06",
text! "1F0A0..1F0AE  ; Grapheme_Base # So  [15] PLAYING CARD BACK..PLAYING CARD KING OF SPADES",
text! "1F0B1..1F0BF  ; Grapheme_Base # So  [15] PLAYING CARD ACE OF HEARTS..PLAYING CARD RED JOKER",
text! "1F0C1..1F0CF  ; Grapheme_Base # So  [15] PLAYING CARD ACE OF DIAMONDS..PLAYING CARD BLACK JOKER",
text! "1F0D1..1F0F5  ; Grapheme_Base # So  [37] PLAYING CARD ACE OF CLUBS..PLAYING CARD TRUMP-21",
text! "1F100..1F10C  ; Grapheme_Base # No  [13] DIGIT ZERO FULL STOP..DINGBAT NEGATIVE CIRCLED SANS-SERIF DIGIT ZERO",
text! "1F10D..1F1AD  ; Grapheme_Base # So [161] CIRCLED ZERO WITH SLASH..MASK WORK SYMBOL",
text! "1F1E6..1F202  ; Grapheme_Base # So  [29] REGIONAL INDICATOR SYMBOL LETTER A..SQUARED KATAKANA SA",
text! "1F210..1F23B  ; Grapheme_Base # So  [44] SQUARED CJK UNIFIED IDEOGRAPH-624B..SQUARED CJK UNIFIED IDEOGRAPH-914D",
text! "1F240..1F248  ; Grapheme_Base # So   [9] TORTOISE SHELL BRACKETED CJK UNIFIED IDEOGRAPH-672C..TORTOISE SHELL BRACKETED CJK UNIFIED IDEOGRAPH-6557",
text! "1F250..1F251  ; Grapheme_Base # So   [2] CIRCLED IDEOGRAPH ADVANTAGE..CIRCLED IDEOGRAPH ACCEPT",
text! "1F260..1F265  ; Grapheme_Base # So   [6] ROUNDED SYMBOL FOR FU..ROUNDED SYMBOL FOR CAI",
text! "1F300..1F3FA  ; Grapheme_Base # So [251] CYCLONE..AMPHORA",
text! "1F3FB..1F3FF  ; Grapheme_Base # Sk   [5] EMOJI MODIFIER FITZPATRICK TYPE-1-2..EMOJI MODIFIER FITZPATRICK TYPE-6",
text! "1F400..1F6D8  ; Grapheme_Base # So [729] RAT..LANDSLIDE",
text! "1F6DC..1F6EC  ; Grapheme_Base # So  [17] WIRELESS..AIRPLANE ARRIVING",
text! "1F6F0..1F6FC  ; Grapheme_Base # So  [13] SATELLITE..ROLLER SKATE",
text! "1F700..1F7D9  ; Grapheme_Base # So [218] ALCHEMICAL SYMBOL FOR QUINTESSENCE..NINE POINTED WHITE STAR",
text! "1F7E0..1F7EB  ; Grapheme_Base # So  [12] LARGE ORANGE CIRCLE..LARGE BROWN SQUARE",
text! "1F7F0         ; Grapheme_Base # So       HEAVY EQUALS SIGN",
text! "1F800..1F80B  ; Grapheme_Base # So  [12] LEFTWARDS ARROW WITH SMALL TRIANGLE ARROWHEAD..DOWNWARDS ARROW WITH LARGE TRIANGLE ARROWHEAD",
text! "1F810..1F847  ; Grapheme_Base # So  [56] LEFTWARDS ARROW WITH SMALL EQUILATERAL ARROWHEAD..DOWNWARDS HEAVY ARROW",
text! "1F850..1F859  ; Grapheme_Base # So  [10] LEFTWARDS SANS-SERIF ARROW..UP DOWN SANS-SERIF ARROW",
text! "1F860..1F887  ; Grapheme_Base # So  [40] WIDE-HEADED LEFTWARDS LIGHT BARB ARROW..WIDE-HEADED SOUTH WEST VERY HEAVY BARB ARROW",
text! "1F890..1F8AD  ; Grapheme_Base # So  [30] LEFTWARDS TRIANGLE ARROWHEAD..WHITE ARROW SHAFT WIDTH TWO THIRDS",
text! "1F8B0..1F8BB  ; Grapheme_Base # So  [12] ARROW POINTING UPWARDS THEN NORTH WEST..SOUTH WEST ARROW FROM BAR",
text! "1F8C0..1F8C1  ; Grapheme_Base # So   [2] LEFTWARDS ARROW FROM DOWNWARDS ARROW..RIGHTWARDS ARROW FROM DOWNWARDS ARROW",
text! "1F8D0..1F8D8  ; Grapheme_Base # Sm   [9] LONG RIGHTWARDS ARROW OVER LONG LEFTWARDS ARROW..LONG LEFT RIGHT ARROW WITH DEPENDENT LOBE",
text! "1F900..1FA57  ; Grapheme_Base # So [344] CIRCLED CROSS FORMEE WITH FOUR DOTS..BLACK CHESS ALFIL",
text! "1FA60..1FA6D  ; Grapheme_Base # So  [14] XIANGQI RED GENERAL..XIANGQI BLACK SOLDIER",
text! "1FA70..1FA7C  ; Grapheme_Base # So  [13] BALLET SHOES..CRUTCH",
text! "1FA80..1FA8A  ; Grapheme_Base # So  [11] YO-YO..TROMBONE",
text! "1FA8E..1FAC6  ; Grapheme_Base # So  [57] TREASURE CHEST..FINGERPRINT",
text! "1FAC8         ; Grapheme_Base # So       HAIRY CREATURE",
text! "1FACD..1FADC  ; Grapheme_Base # So  [16] ORCA..ROOT VEGETABLE",
text! "1FADF..1FAEA  ; Grapheme_Base # So  [12] SPLATTER..DISTORTED FACE",
text! "1FAEF..1FAF8  ; Grapheme_Base # So  [10] FIGHT CLOUD..RIGHTWARDS PUSHING HAND",
text! "1FB00..1FB92  ; Grapheme_Base # So [147] BLOCK SEXTANT-1..UPPER HALF INVERSE MEDIUM SHADE AND LOWER HALF BLOCK",
text! "1FB94..1FBEF  ; Grapheme_Base # So  [92] LEFT HALF INVERSE MEDIUM SHADE AND RIGHT HALF BLOCK..TOP LEFT JUSTIFIED LOWER RIGHT QUARTER BLACK CIRCLE",
text! "1FBF0..1FBF9  ; Grapheme_Base # Nd  [10] SEGMENTED DIGIT ZERO..SEGMENTED DIGIT NINE",
text! "1FBFA         ; Grapheme_Base # So       ALARM BELL SYMBOL",
text! "20000..2A6DF  ; Grapheme_Base # Lo [42720] CJK UNIFIED IDEOGRAPH-20000..CJK UNIFIED IDEOGRAPH-2A6DF",
text! "2A700..2B81D  ; Grapheme_Base # Lo [4382] CJK UNIFIED IDEOGRAPH-2A700..CJK UNIFIED IDEOGRAPH-2B81D",
text! "2B820..2CEAD  ; Grapheme_Base # Lo [5774] CJK UNIFIED IDEOGRAPH-2B820..CJK UNIFIED IDEOGRAPH-2CEAD",
text! "2CEB0..2EBE0  ; Grapheme_Base # Lo [7473] CJK UNIFIED IDEOGRAPH-2CEB0..CJK UNIFIED IDEOGRAPH-2EBE0",
text! "2EBF0..2EE5D  ; Grapheme_Base # Lo [622] CJK UNIFIED IDEOGRAPH-2EBF0..CJK UNIFIED IDEOGRAPH-2EE5D",
text! "2F800..2FA1D  ; Grapheme_Base # Lo [542] CJK COMPATIBILITY IDEOGRAPH-2F800..CJK COMPATIBILITY IDEOGRAPH-2FA1D",
text! "30000..3134A  ; Grapheme_Base # Lo [4939] CJK UNIFIED IDEOGRAPH-30000..CJK UNIFIED IDEOGRAPH-3134A",
text! "31350..33479  ; Grapheme_Base # Lo [8490] CJK UNIFIED IDEOGRAPH-31350..CJK UNIFIED IDEOGRAPH-33479",
text! "",
text! "# Total code points: 157494",
text! "",
text! "# ================================================",
text! "",
text! "# Derived Property: Grapheme_Link (deprecated)"]

/-- lines 12993-13056 -/
def derivedCore203 : List Nat := [
text! "#  Generated from: Canonical_Combining_Class=Virama",
text! "#  Use Canonical_Combining_Class=Virama directly instead",
text! "",
text! "094D          ; Grapheme_Link # Mn       DEVANAGARI SIGN VIRAMA",
text! "09CD          ; Grapheme_Link # Mn       BENGALI SIGN VIRAMA",
text! "0A4D          ; Grapheme_Link # Mn       GURMUKHI SIGN VIRAMA",
text! "0ACD          ; Grapheme_Link # Mn       GUJARATI SIGN VIRAMA",
text! "0B4D          ; Grapheme_Link # Mn       ORIYA SIGN VIRAMA",
text! "0BCD          ; Grapheme_Link # Mn       TAMIL SIGN VIRAMA",
text! "0C4D          ; Grapheme_Link # Mn       TELUGU SIGN VIRAMA",
text! "0CCD          ; Grapheme_Link # Mn       KANNADA SIGN VIRAMA",
text! "0D3B..0D3C    ; Grapheme_Link # Mn   [2] MALAYALAM SIGN VERTICAL BAR VIRAMA..MALAYALAM SIGN CIRCULAR VIRAMA",
text! "0D4D          ; Grapheme_Link # Mn       MALAYALAM SIGN VIRAMA",
text! "0DCA          ; Grapheme_Link # Mn       SINHALA SIGN AL-LAKUNA",
text! "0E3A          ; Grapheme_Link # Mn       THAI CHARACTER PHINTHU",
text! "0EBA          ; Grapheme_Link # Mn       LAO SIGN PALI VIRAMA",
text! "0F84          ; Grapheme_Link # Mn       TIBETAN MARK HALANTA",
text! "1039..103A    ; Grapheme_Link # Mn   [2] MYANMAR SIGN VIRAMA..MYANMAR SIGN ASAT",
text! "1714          ; Grapheme_Link # Mn       TAGALOG SIGN VIRAMA",
text! "1715          ; Grapheme_Link # Mc       TAGALOG SIGN PAMUDPOD",
text! "1734          ; Grapheme_Link # Mc       HANUNOO SIGN PAMUDPOD",
text! "17D2          ; Grapheme_Link # Mn       KHMER SIGN COENG",
text! "1A60          ; Grapheme_Link # Mn       TAI THAM SIGN SAKOT",
text! "1B44          ; Grapheme_Link # Mc       BALINESE ADEG ADEG",
text! "1BAA          ; Grapheme_Link # Mc       SUNDANESE SIGN PAMAAEH",
text! "1BAB          ; Grapheme_Link # Mn       SUNDANESE SIGN VIRAMA",
text! "1BF2..1BF3    ; Grapheme_Link # Mc   [2] BATAK PANGOLAT..BATAK PANONGONAN",
text! "2D7F          ; Grapheme_Link # Mn       TIFINAGH CONSONANT JOINER",
text! "A806          ; Grapheme_Link # Mn       SYLOTI NAGRI SIGN HASANTA",
text! "A82C          ; Grapheme_Link # Mn       SYLOTI NAGRI SIGN ALTERNATE HASANTA",
text! "A8C4          ; Grapheme_Link # Mn       SAURASHTRA SIGN VIRAMA",
text! "A953          ; Grapheme_Link # Mc       REJANG VIRAMA",
text! "A9C0          ; Grapheme_Link # Mc       JAVANESE PANGKON",
text! "AAF6          ; Grapheme_Link # Mn       MEETEI MAYEK VIRAMA",
text! "ABED          ; Grapheme_Link # Mn       MEETEI MAYEK APUN IYEK",
text! "10A3F         ; Grapheme_Link # Mn       KHAROSHTHI VIRAMA",
text! "11046         ; Grapheme_Link # Mn       BRAHMI VIRAMA",
text! "11070         ; Grapheme_Link # Mn       BRAHMI SIGN OLD TAMIL VIRAMA",
text! "1107F         ; Grapheme_Link # Mn       BRAHMI NUMBER JOINER",
text! "110B9         ; Grapheme_Link # Mn       KAITHI SIGN VIRAMA",
text! "11133..11134  ; Grapheme_Link # Mn   [2] CHAKMA VIRAMA..CHAKMA MAAYYAA",
text! "111C0         ; Grapheme_Link # Mc       SHARADA SIGN VIRAMA",
text! "11235         ; Grapheme_Link # Mc       KHOJKI SIGN VIRAMA",
text! "112EA         ; Grapheme_Link # Mn       KHUDAWADI SIGN VIRAMA",
text! "1134D         ; Grapheme_Link # Mc       GRANTHA SIGN VIRAMA",
text! "113CE         ; Grapheme_Link # Mn       TULU-TIGALARI SIGN VIRAMA",
text! "113CF         ; Grapheme_Link # Mc       TULU-TIGALARI SIGN LOOPED VIRAMA",
text! "113D0         ; Grapheme_Link # Mn       TULU-TIGALARI CONJOINER",
text! "11442         ; Grapheme_Link # Mn       NEWA SIGN VIRAMA",
text! "114C2         ; Grapheme_Link # Mn       TIRHUTA SIGN VIRAMA",
text! "115BF         ; Grapheme_Link # Mn       SIDDHAM SIGN VIRAMA",
text! "1163F         ; Grapheme_Link # Mn       MODI SIGN VIRAMA",
text! "116B6         ; Grapheme_Link # Mc       TAKRI SIGN VIRAMA",
text! "1172B         ; Grapheme_Link # Mn       AHOM SIGN KILLER",
text! "11839         ; Grapheme_Link # Mn       DOGRA SIGN VIRAMA",
text! "1193D         ; Grapheme_Link # Mc       DIVES AKURU SIGN HALANTA",
text! "1193E         ; Grapheme_Link # Mn       DIVES AKURU VIRAMA",
text! "119E0         ; Grapheme_Link # Mn       NANDINAGARI SIGN VIRAMA",
text! "11A34         ; Grapheme_Link # Mn       ZANABAZAR SQUARE SIGN VIRAMA",
text! "11A47         ; Grapheme_Link # Mn       ZANABAZAR SQUARE SUBJOINER",
text! "11A99         ; Grapheme_Link # Mn       SOYOMBO SUBJOINER",
text! "11C3F         ; Grapheme_Link # Mn       BHAIKSUKI SIGN VIRAMA",
text! "11D44..11D45  ; Grapheme_Link # Mn   [2] MASARAM GONDI SIGN HALANTA..MASARAM GONDI VIRAMA",
text! "11D97         ; Grapheme_Link # Mn       GUNJALA GONDI VIRAMA"]

/-- lines 13057-13120 -/
def derivedCore204 : List Nat := [
text! "11F41         ; Grapheme_Link # Mc       KAWI SIGN KILLER",
text! "11F42         ; Grapheme_Link # Mn       KAWI CONJOINER",
text! "1612F         ; Grapheme_Link # Mn       GURUNG KHEMA SIGN THOLHOMA",
text! "",
text! "# Total code points: 69",
text! "",
text! "# ================================================",
text! "",
text! "# Derived Property: Indic_Conjunct_Break",
text! "#  Generated from the Grapheme_Cluster_Break, Indic_Syllabic_Category,",
text! "#  Canonical_Combining_Class, and Script properties as described in UAX #44:",
text! "#  https://www.unicode.org/reports/tr44/.",
text! "",
text! "#  All code points not explicitly listed for Indic_Conjunct_Break",
text! "#  have the value None.",
text! "",
text! "# @missing: 0000..10FFFF; InCB; None",
text! "",
text! "# ================================================",
text! "",
text! "# Indic_Conjunct_Break=Linker",
text! "",
text! "094D          ; InCB; Linker # Mn       DEVANAGARI SIGN VIRAMA",
text! "09CD          ; InCB; Linker # Mn       BENGALI SIGN VIRAMA",
text! "0ACD          ; InCB; Linker # Mn       GUJARATI SIGN VIRAMA",
text! "0B4D          ; InCB; Linker # Mn       ORIYA SIGN VIRAMA",
text! "0C4D          ; InCB; Linker # Mn       TELUGU SIGN VIRAMA",
text! "0D4D          ; InCB; Linker # Mn       MALAYALAM SIGN VIRAMA",
text! "1039          ; InCB; Linker # Mn       MYANMAR SIGN VIRAMA",
text! "17D2          ; InCB; Linker # Mn       KHMER SIGN COENG",
text! "1A60          ; InCB; Linker # Mn       TAI THAM SIGN SAKOT",
text! "1B44          ; InCB; Linker # Mc       BALINESE ADEG ADEG",
text! "1BAB          ; InCB; Linker # Mn       SUNDANESE SIGN VIRAMA",
text! "A9C0          ; InCB; Linker # Mc       JAVANESE PANGKON",
text! "AAF6          ; InCB; Linker # Mn       MEETEI MAYEK VIRAMA",
text! "10A3F         ; InCB; Linker # Mn       KHAROSHTHI VIRAMA",
text! "11133         ; InCB; Linker # Mn       CHAKMA VIRAMA",
text! "113D0         ; InCB; Linker # Mn       TULU-TIGALARI CONJOINER",
text! "1193E         ; InCB; Linker # Mn       DIVES AKURU VIRAMA",
text! "11A47         ; InCB; Linker # Mn       ZANABAZAR SQUARE SUBJOINER",
text! "11A99         ; InCB; Linker # Mn       SOYOMBO SUBJOINER",
text! "11F42         ; InCB; Linker # Mn       KAWI CONJOINER",
text! "",
text! "# Total code points: 20",
text! "",
text! "# ================================================",
text! "",
text! "# Indic_Conjunct_Break=Consonant",
text! "",
text! "0915..0939    ; InCB; Consonant # Lo  [37] DEVANAGARI LETTER KA..DEVANAGARI LETTER HA",
text! "0958..095F    ; InCB; Consonant # Lo   [8] DEVANAGARI LETTER QA..DEVANAGARI LETTER YYA",
text! "0978..097F    ; InCB; Consonant # Lo   [8] DEVANAGARI LETTER MARWARI DDA..DEVANAGARI LETTER BBA",
text! "0995..09A8    ; InCB; Consonant # Lo  [20] BENGALI LETTER KA..BENGALI LETTER NA",
text! "09AA..09B0    ; InCB; Consonant # Lo   [7] BENGALI LETTER PA..BENGALI LETTER RA",
text! "09B2          ; InCB; Consonant # Lo       BENGALI LETTER LA",
text! "09B6..09B9    ; InCB; Consonant # Lo   [4] BENGALI LETTER SHA..BENGALI LETTER HA",
text! "09DC..09DD    ; InCB; Consonant # Lo   [2] BENGALI LETTER RRA..BENGALI LETTER RHA",
text! "09DF          ; InCB; Consonant # Lo       BENGALI LETTER YYA",
text! "09F0..09F1    ; InCB; Consonant # Lo   [2] BENGALI LETTER RA WITH MIDDLE DIAGONAL..BENGALI LETTER RA WITH LOWER DIAGONAL",
text! "0A95..0AA8    ; InCB; Consonant # Lo  [20] GUJARATI LETTER KA..GUJARATI LETTER NA",
text! "0AAA..0AB0    ; InCB; Consonant # Lo   [7] GUJARATI LETTER PA..GUJARATI LETTER RA",
text! "0AB2..0AB3    ; InCB; Consonant # Lo   [2] GUJARATI LETTER LA..GUJARATI LETTER LLA",
text! "0AB5..0AB9    ; InCB; Consonant # Lo   [5] GUJARATI LETTER VA..GUJARATI LETTER HA",
text! "0AF9          ; InCB; Consonant # Lo       GUJARATI LETTER ZHA"]

/-- lines 13121-13184 -/
def derivedCore205 : List Nat := [
text! "0B15..0B28    ; InCB; Consonant # Lo  [20] ORIYA LETTER KA..ORIYA LETTER NA",
text! "0B2A..0B30    ; InCB; Consonant # Lo   [7] ORIYA LETTER PA..ORIYA LETTER RA",
text! "0B32..0B33    ; InCB; Consonant # Lo   [2] ORIYA LETTER LA..ORIYA LETTER LLA",
text! "0B35..0B39    ; InCB; Consonant # Lo   [5] ORIYA LETTER VA..ORIYA LETTER HA",
text! "0B5C..0B5D    ; InCB; Consonant # Lo   [2] ORIYA LETTER RRA..ORIYA LETTER RHA",
text! "0B5F          ; InCB; Consonant # Lo       ORIYA LETTER YYA",
text! "0B71          ; InCB; Consonant # Lo       ORIYA LETTER WA",
text! "0C15..0C28    ; InCB; Consonant # Lo  [20] TELUGU LETTER KA..TELUGU LETTER NA",
text! "0C2A..0C39    ; InCB; Consonant # Lo  [16] TELUGU LETTER PA..TELUGU LETTER HA",
text! "0C58..0C5A    ; InCB; Consonant # Lo   [3] TELUGU LETTER TSA..TELUGU LETTER RRRA",
text! "0D15..0D3A    ; InCB; Consonant # Lo  [38] MALAYALAM LETTER KA..MALAYALAM LETTER TTTA",
text! "1000..102A    ; InCB; Consonant # Lo  [43] MYANMAR LETTER KA..MYANMAR LETTER AU",
text! "103F          ; InCB; Consonant # Lo       MYANMAR LETTER GREAT SA",
text! "1050..1055    ; InCB; Consonant # Lo   [6] MYANMAR LETTER SHA..MYANMAR LETTER VOCALIC LL",
text! "105A..105D    ; InCB; Consonant # Lo   [4] MYANMAR LETTER MON NGA..MYANMAR LETTER MON BBE",
text! "1061          ; InCB; Consonant # Lo       MYANMAR LETTER SGAW KAREN SHA",
text! "1065..1066    ; InCB; Consonant # Lo   [2] MYANMAR LETTER WESTERN PWO KAREN THA..MYANMAR LETTER WESTERN PWO KAREN PWA",
text! "106E..1070    ; InCB; Consonant # Lo   [3] MYANMAR LETTER EASTERN PWO KAREN NNA..MYANMAR LETTER EASTERN PWO KAREN GHWA",
text! "1075..1081    ; InCB; Consonant # Lo  [13] MYANMAR LETTER SHAN KA..MYANMAR LETTER SHAN HA",
text! "108E          ; InCB; Consonant # Lo       MYANMAR LETTER RUMAI PALAUNG FA",
text! "1780..17B3    ; InCB; Consonant # Lo  [52] KHMER LETTER KA..KHMER INDEPENDENT VOWEL QAU",
text! "1A20..1A54    ; InCB; Consonant # Lo  [53] TAI THAM LETTER HIGH KA..TAI THAM LETTER GREAT SA",
text! "1B0B..1B0C    ; InCB; Consonant # Lo   [2] BALINESE LETTER RA REPA..BALINESE LETTER RA REPA TEDUNG",
text! "1B13..1B33    ; InCB; Consonant # Lo  [33] BALINESE LETTER KA..BALINESE LETTER HA",
text! "1B45..1B4C    ; InCB; Consonant # Lo   [8] BALINESE LETTER KAF SASAK..BALINESE LETTER ARCHAIC JNYA",
text! "1B83..1BA0    ; InCB; Consonant # Lo  [30] SUNDANESE LETTER A..SUNDANESE LETTER HA",
text! "1BAE..1BAF    ; InCB; Consonant # Lo   [2] SUNDANESE LETTER KHA..SUNDANESE LETTER SYA",
text! "1BBB..1BBD    ; InCB; Consonant # Lo   [3] SUNDANESE LETTER REU..SUNDANESE LETTER BHA",
text! "A989..A98B    ; InCB; Consonant # Lo   [3] JAVANESE LETTER PA CEREK..JAVANESE LETTER NGA LELET RASWADI",
text! "A98F..A9B2    ; InCB; Consonant # Lo  [36] JAVANESE LETTER KA..JAVANESE LETTER HA",
text! "A9E0..A9E4    ; InCB; Consonant # Lo   [5] MYANMAR LETTER SHAN GHA..MYANMAR LETTER SHAN BHA",
text! "A9E7..A9EF    ; InCB; Consonant # Lo   [9] MYANMAR LETTER TAI LAING NYA..MYANMAR LETTER TAI LAING NNA",
text! "A9FA..A9FE    ; InCB; Consonant # Lo   [5] MYANMAR LETTER TAI LAING LLA..MYANMAR LETTER TAI LAING BHA",
text! "AA60..AA6F    ; InCB; Consonant # Lo  [16] MYANMAR LETTER KHAMTI GA..MYANMAR LETTER KHAMTI FA",
text! "AA71..AA73    ; InCB; Consonant # Lo   [3] MYANMAR LETTER KHAMTI XA..MYANMAR LETTER KHAMTI RA",
text! "AA7A          ; InCB; Consonant # Lo       MYANMAR LETTER AITON RA",
text! "AA7E..AA7F    ; InCB; Consonant # Lo   [2] MYANMAR LETTER SHWE PALAUNG CHA..MYANMAR LETTER SHWE PALAUNG SHA",
text! "AAE0..AAEA    ; InCB; Consonant # Lo  [11] MEETEI MAYEK LETTER E..MEETEI MAYEK LETTER SSA",
text! "ABC0..ABDA    ; InCB; Consonant # Lo  [27] MEETEI MAYEK LETTER KOK..MEETEI MAYEK LETTER BHAM",
text! "10A00         ; InCB; Consonant # Lo       KHAROSHTHI LETTER A",
text! "10A10..10A13  ; InCB; Consonant # Lo   [4] KHAROSHTHI LETTER KA..KHAROSHTHI LETTER GHA",
text! "10A15..10A17  ; InCB; Consonant # Lo   [3] KHAROSHTHI LETTER CA..KHAROSHTHI LETTER JA",
text! "10A19..10A35  ; InCB; Consonant # Lo  [29] KHAROSHTHI LETTER NYA..KHAROSHTHI LETTER VHA",
text! "11103..11126  ; InCB; Consonant # Lo  [36] CHAKMA LETTER AA..CHAKMA LETTER HAA",
text! "11144         ; InCB; Consonant # Lo       CHAKMA LETTER LHAA",
text! "11147         ; InCB; Consonant # Lo       CHAKMA LETTER VAA",
text! "11380..11389  ; InCB; Consonant # Lo  [10] TULU-TIGALARI LETTER A..TULU-TIGALARI LETTER VOCALIC LL",
text! "1138B         ; InCB; Consonant # Lo       TULU-TIGALARI LETTER EE",
text! "1138E         ; InCB; Consonant # Lo       TULU-TIGALARI LETTER AI",
text! "11390..113B5  ; InCB; Consonant # Lo  [38] TULU-TIGALARI LETTER OO..TULU-TIGALARI LETTER LLLA",
text! "11900..11906  ; InCB; Consonant # Lo   [7] DIVES AKURU LETTER A..DIVES AKURU LETTER E",
text! "11909         ; InCB; Consonant # Lo       DIVES AKURU LETTER O",
text! "1190C..11913  ; InCB; Consonant # Lo   [8] DIVES AKURU LETTER KA..DIVES AKURU LETTER JA",
text! "11915..11916  ; InCB; Consonant # Lo   [2] DIVES AKURU LETTER NYA..DIVES AKURU LETTER TTA",
text! "11918..1192F  ; InCB; Consonant # Lo  [24] DIVES AKURU LETTER DDA..DIVES AKURU LETTER ZA",
text! "11A00         ; InCB; Consonant # Lo       ZANABAZAR SQUARE LETTER A",
text! "11A0B..11A32  ; InCB; Consonant # Lo  [40] ZANABAZAR SQUARE LETTER KA..ZANABAZAR SQUARE LETTER KSSA",
text! "11A50         ; InCB; Consonant # Lo       SOYOMBO LETTER A",
text! "11A5C..11A83  ; InCB; Consonant # Lo  [40] SOYOMBO LETTER KA..SOYOMBO LETTER KSSA",
text! "11F04..11F10  ; InCB; Consonant # Lo  [13] KAWI LETTER A..KAWI LETTER O",
text! "11F12..11F33  ; InCB; Consonant # Lo  [34] KAWI LETTER KA..KAWI LETTER JNYA",
text! "",
text! "# Total code points: 911",
text! ""]

/-- lines 13185-13248 -/
def derivedCore206 : List Nat := [
text! "# ================================================",
text! "",
text! "# Indic_Conjunct_Break=Extend",
text! "",
text! "0300..036F    ; InCB; Extend # Mn [112] COMBINING GRAVE ACCENT..COMBINING LATIN SMALL LETTER X",
text! "0483..0487    ; InCB; Extend # Mn   [5] COMBINING CYRILLIC TITLO..COMBINING CYRILLIC POKRYTIE",
text! "0488..0489    ; InCB; Extend # Me   [2] COMBINING CYRILLIC HUNDRED THOUSANDS SIGN..COMBINING CYRILLIC MILLIONS SIGN",
text! "0591..05BD    ; InCB; Extend # Mn  [45] HEBREW ACCENT ETNAHTA..HEBREW POINT METEG",
text! "05BF          ; InCB; Extend # Mn       HEBREW POINT RAFE",
text! "05C1..05C2    ; InCB; Extend # Mn   [2] HEBREW POINT SHIN DOT..HEBREW POINT SIN DOT",
text! "05C4..05C5    ; InCB; Extend # Mn   [2] HEBREW MARK UPPER DOT..HEBREW MARK LOWER DOT",
text! "05C7          ; InCB; Extend # Mn       HEBREW POINT QAMATS QATAN",
text! "0610..061A    ; InCB; Extend # Mn  [11] ARABIC SIGN SALLALLAHOU ALAYHE WASSALLAM..ARABIC SMALL KASRA",
text! "064B..065F    ; InCB; Extend # Mn  [21] ARABIC FATHATAN..ARABIC WAVY HAMZA BELOW",
text! "0670          ; InCB; Extend # Mn       ARABIC LETTER SUPERSCRIPT ALEF",
text! "06D6..06DC    ; InCB; Extend # Mn   [7] ARABIC SMALL HIGH LIGATURE SAD WITH LAM WITH ALEF MAKSURA..ARABIC SMALL HIGH SEEN",
text! "06DF..06E4    ; InCB; Extend # Mn   [6] ARABIC SMALL HIGH ROUNDED ZERO..ARABIC SMALL HIGH MADDA",
text! "06E7..06E8    ; InCB; Extend # Mn   [2] ARABIC SMALL HIGH YEH..ARABIC SMALL HIGH NOON",
text! "06EA..06ED    ; InCB; Extend # Mn   [4] ARABIC EMPTY CENTRE LOW STOP..ARABIC SMALL LOW MEEM",
text! "0711          ; InCB; Extend # Mn       SYRIAC LETTER SUPERSCRIPT ALAPH",
text! "0730..074A    ; InCB; Extend # Mn  [27] SYRIAC PTHAHA ABOVE..SYRIAC BARREKH",
text! "07A6..07B0    ; InCB; Extend # Mn  [11] THAANA ABAFILI..THAANA SUKUN",
text! "07EB..07F3    ; InCB; Extend # Mn   [9] NKO COMBINING SHORT HIGH TONE..NKO COMBINING DOUBLE DOT ABOVE",
text! "07FD          ; InCB; Extend # Mn       NKO DANTAYALAN",
text! "0816..0819    ; InCB; Extend # Mn   [4] SAMARITAN MARK IN..SAMARITAN MARK DAGESH",
text! "081B..0823    ; InCB; Extend # Mn   [9] SAMARITAN MARK EPENTHETIC YUT..SAMARITAN VOWEL SIGN A",
text! "0825..0827    ; InCB; Extend # Mn   [3] SAMARITAN VOWEL SIGN SHORT A..SAMARITAN VOWEL SIGN U",
text! "0829..082D    ; InCB; Extend # Mn   [5] SAMARITAN VOWEL SIGN LONG I..SAMARITAN MARK NEQUDAA",
text! "0859..085B    ; InCB; Extend # Mn   [3] MANDAIC AFFRICATION MARK..MANDAIC GEMINATION MARK",
text! "0897..089F    ; InCB; Extend # Mn   [9] ARABIC PEPET..ARABIC HALF MADDA OVER MADDA",
text! "08CA..08E1    ; InCB; Extend # Mn  [24] ARABIC SMALL HIGH FARSI YEH..ARABIC SMALL HIGH SIGN SAFHA",
text! "08E3..0902    ; InCB; Extend # Mn  [32] ARABIC TURNED DAMMA BELOW..DEVANAGARI SIGN ANUSVARA",
text! "093A          ; InCB; Extend # Mn       DEVANAGARI VOWEL SIGN OE",
text! "093C          ; InCB; Extend # Mn       DEVANAGARI SIGN NUKTA",
text! "0941..0948    ; InCB; Extend # Mn   [8] DEVANAGARI VOWEL SIGN U..DEVANAGARI VOWEL SIGN AI",
text! "0951..0957    ; InCB; Extend # Mn   [7] DEVANAGARI STRESS SIGN UDATTA..DEVANAGARI VOWEL SIGN UUE",
text! "0962..0963    ; InCB; Extend # Mn   [2] DEVANAGARI VOWEL SIGN VOCALIC L..DEVANAGARI VOWEL SIGN VOCALIC LL",
text! "0981          ; InCB; Extend # Mn       BENGALI SIGN CANDRABINDU",
text! "09BC          ; InCB; Extend # Mn       BENGALI SIGN NUKTA",
text! "09BE          ; InCB; Extend # Mc       BENGALI VOWEL SIGN AA",
text! "09C1..09C4    ; InCB; Extend # Mn   [4] BENGALI VOWEL SIGN U..BENGALI VOWEL SIGN VOCALIC RR",
text! "09D7          ; InCB; Extend # Mc       BENGALI AU LENGTH MARK",
text! "09E2..09E3    ; InCB; Extend # Mn   [2] BENGALI VOWEL SIGN VOCALIC L..BENGALI VOWEL SIGN VOCALIC LL",
text! "09FE          ; InCB; Extend # Mn       BENGALI SANDHI MARK",
text! "0A01..0A02    ; InCB; Extend # Mn   [2] GURMUKHI SIGN ADAK BINDI..GURMUKHI SIGN BINDI",
text! "0A3C          ; InCB; Extend # Mn       GURMUKHI SIGN NUKTA",
text! "0A41..0A42    ; InCB; Extend # Mn   [2] GURMUKHI VOWEL SIGN U..GURMUKHI VOWEL SIGN UU",
text! "0A47..0A48    ; InCB; Extend # Mn   [2] GURMUKHI VOWEL SIGN EE..GURMUKHI VOWEL SIGN AI",
text! "0A4B..0A4D    ; InCB; Extend # Mn   [3] GURMUKHI VOWEL SIGN OO..GURMUKHI SIGN VIRAMA",
text! "0A51          ; InCB; Extend # Mn       GURMUKHI SIGN UDAAT",
text! "0A70..0A71    ; InCB; Extend # Mn   [2] GURMUKHI TIPPI..GURMUKHI ADDAK",
text! "0A75          ; InCB; Extend # Mn       GURMUKHI SIGN YAKASH",
text! "0A81..0A82    ; InCB; Extend # Mn   [2] GUJARATI SIGN CANDRABINDU..GUJARATI SIGN ANUSVARA",
text! "0ABC          ; InCB; Extend # Mn       GUJARATI SIGN NUKTA",
text! "0AC1..0AC5    ; InCB; Extend # Mn   [5] GUJARATI VOWEL SIGN U..GUJARATI VOWEL SIGN CANDRA E",
text! "0AC7..0AC8    ; InCB; Extend # Mn   [2] GUJARATI VOWEL SIGN E..GUJARATI VOWEL SIGN AI",
text! "0AE2..0AE3    ; InCB; Extend # Mn   [2] GUJARATI VOWEL SIGN VOCALIC L..GUJARATI VOWEL SIGN VOCALIC LL",
text! "0AFA..0AFF    ; InCB; Extend # Mn   [6] GUJARATI SIGN SUKUN..GUJARATI SIGN TWO-CIRCLE NUKTA ABOVE",
text! "0B01          ; InCB; Extend # Mn       ORIYA SIGN CANDRABINDU",
text! "0B3C          ; InCB; Extend # Mn       ORIYA SIGN NUKTA",
text! "0B3E          ; InCB; Extend # Mc       ORIYA VOWEL SIGN AA",
text! "0B3F          ; InCB; Extend # Mn       ORIYA VOWEL SIGN I",
text! "0B41..0B44    ; InCB; Extend # Mn   [4] ORIYA VOWEL SIGN U..ORIYA VOWEL SIGN VOCALIC RR",
text! "0B55..0B56    ; InCB; Extend # Mn   [2] ORIYA SIGN OVERLINE..ORIYA AI LENGTH MARK"]

/-- lines 13249-13312 -/
def derivedCore207 : List Nat := [
text! "0B57          ; InCB; Extend # Mc       ORIYA AU LENGTH MARK",
text! "0B62..0B63    ; InCB; Extend # Mn   [2] ORIYA VOWEL SIGN VOCALIC L..ORIYA VOWEL SIGN VOCALIC LL",
text! "0B82          ; InCB; Extend # Mn       TAMIL SIGN ANUSVARA",
text! "0BBE          ; InCB; Extend # Mc       TAMIL VOWEL SIGN AA",
text! "0BC0          ; InCB; Extend # Mn       TAMIL VOWEL SIGN II",
text! "0BCD          ; InCB; Extend # Mn       TAMIL SIGN VIRAMA",
text! "0BD7          ; InCB; Extend # Mc       TAMIL AU LENGTH MARK",
text! "0C00          ; InCB; Extend # Mn       TELUGU SIGN COMBINING CANDRABINDU ABOVE",
text! "0C04          ; InCB; Extend # Mn       TELUGU SIGN COMBINING ANUSVARA ABOVE",
text! "0C3C          ; InCB; Extend # Mn       TELUGU SIGN NUKTA",
text! "0C3E..0C40    ; InCB; Extend # Mn   [3] TELUGU VOWEL SIGN AA..TELUGU VOWEL SIGN II",
text! "0C46..0C48    ; InCB; Extend # Mn   [3] TELUGU VOWEL SIGN E..TELUGU VOWEL SIGN AI",
text! "0C4A..0C4C    ; InCB; Extend # Mn   [3] TELUGU VOWEL SIGN O..TELUGU VOWEL SIGN AU",
text! "0C55..0C56    ; InCB; Extend # Mn   [2] TELUGU LENGTH MARK..TELUGU AI LENGTH MARK",
text! "0C62..0C63    ; InCB; Extend # Mn   [2] TELUGU VOWEL SIGN VOCALIC L..TELUGU VOWEL SIGN VOCALIC LL",
text! "0C81          ; InCB; Extend # Mn       KANNADA SIGN CANDRABINDU",
text! "0CBC          ; InCB; Extend # Mn       KANNADA SIGN NUKTA",
text! "0CBF          ; InCB; Extend # Mn       KANNADA VOWEL SIGN I",
text! "0CC0          ; InCB; Extend # Mc       KANNADA VOWEL SIGN II",
text! "0CC2          ; InCB; Extend # Mc       KANNADA VOWEL SIGN UU",
text! "0CC6          ; InCB; Extend # Mn       KANNADA VOWEL SIGN E",
text! "0CC7..0CC8    ; InCB; Extend # Mc   [2] KANNADA VOWEL SIGN EE..KANNADA VOWEL SIGN AI",
text! "0CCA..0CCB    ; InCB; Extend # Mc   [2] KANNADA VOWEL SIGN O..KANNADA VOWEL SIGN OO",
text! "0CCC..0CCD    ; InCB; Extend # Mn   [2] KANNADA VOWEL SIGN AU..KANNADA SIGN VIRAMA",
text! "0CD5..0CD6    ; InCB; Extend # Mc   [2] KANNADA LENGTH MARK..KANNADA AI LENGTH MARK",
text! "0CE2..0CE3    ; InCB; Extend # Mn   [2] KANNADA VOWEL SIGN VOCALIC L..KANNADA VOWEL SIGN VOCALIC LL",
text! "0D00..0D01    ; InCB; Extend # Mn   [2] MALAYALAM SIGN COMBINING ANUSVARA ABOVE..MALAYALAM SIGN CANDRABINDU",
text! "0D3B..0D3C    ; InCB; Extend # Mn   [2] MALAYALAM SIGN VERTICAL BAR VIRAMA..MALAYALAM SIGN CIRCULAR VIRAMA",
text! "0D3E          ; InCB; Extend # Mc       MALAYALAM VOWEL SIGN AA",
text! "0D41..0D44    ; InCB; Extend # Mn   [4] MALAYALAM VOWEL SIGN U..MALAYALAM VOWEL SIGN VOCALIC RR",
text! "0D57          ; InCB; Extend # Mc       MALAYALAM AU LENGTH MARK",
text! "0D62..0D63    ; InCB; Extend # Mn   [2] MALAYALAM VOWEL SIGN VOCALIC L..MALAYALAM VOWEL SIGN VOCALIC LL",
text! "0D81          ; InCB; Extend # Mn       SINHALA SIGN CANDRABINDU",
text! "0DCA          ; InCB; Extend # Mn       SINHALA SIGN AL-LAKUNA",
text! "0DCF          ; InCB; Extend # Mc       SINHALA VOWEL SIGN AELA-PILLA",
text! "0DD2..0DD4    ; InCB; Extend # Mn   [3] SINHALA VOWEL SIGN KETTI IS-PILLA..SINHALA VOWEL SIGN KETTI PAA-PILLA",
text! "0DD6          ; InCB; Extend # Mn       SINHALA VOWEL SIGN DIGA PAA-PILLA",
text! "0DDF          ; InCB; Extend # Mc       SINHALA VOWEL SIGN GAYANUKITTA",
text! "0E31          ; InCB; Extend # Mn       THAI CHARACTER MAI HAN-AKAT",
text! "0E34..0E3A    ; InCB; Extend # Mn   [7] THAI CHARACTER SARA I..THAI CHARACTER PHINTHU",
text! "0E47..0E4E    ; InCB; Extend # Mn   [8] THAI CHARACTER MAITAIKHU..THAI CHARACTER YAMAKKAN",
text! "0EB1          ; InCB; Extend # Mn       LAO VOWEL SIGN MAI KAN",
text! "0EB4..0EBC    ; InCB; Extend # Mn   [9] LAO VOWEL SIGN I..LAO SEMIVOWEL SIGN LO",
text! "0EC8..0ECE    ; InCB; Extend # Mn   [7] LAO TONE MAI EK..LAO YAMAKKAN",
text! "0F18..0F19    ; InCB; Extend # Mn   [2] TIBETAN ASTROLOGICAL SIGN -KHYUD PA..TIBETAN ASTROLOGICAL SIGN SDONG TSHUGS",
text! "0F35          ; InCB; Extend # Mn       TIBETAN MARK NGAS BZUNG NYI ZLA",
text! "0F37          ; InCB; Extend # Mn       TIBETAN MARK NGAS BZUNG SGOR RTAGS",
text! "0F39          ; InCB; Extend # Mn       TIBETAN MARK TSA -PHRU",
text! "0F71..0F7E    ; InCB; Extend # Mn  [14] TIBETAN VOWEL SIGN AA..TIBETAN SIGN RJES SU NGA RO",
text! "0F80..0F84    ; InCB; Extend # Mn   [5] TIBETAN VOWEL SIGN REVERSED I..TIBETAN MARK HALANTA",
text! "0F86..0F87    ; InCB; Extend # Mn   [2] TIBETAN SIGN LCI RTAGS..TIBETAN SIGN YANG RTAGS",
text! "0F8D..0F97    ; InCB; Extend # Mn  [11] TIBETAN SUBJOINED SIGN LCE TSA CAN..TIBETAN SUBJOINED LETTER JA",
text! "0F99..0FBC    ; InCB; Extend # Mn  [36] TIBETAN SUBJOINED LETTER NYA..TIBETAN SUBJOINED LETTER FIXED-FORM RA",
text! "0FC6          ; InCB; Extend # Mn       TIBETAN SYMBOL PADMA GDAN",
text! "102D..1030    ; InCB; Extend # Mn   [4] MYANMAR VOWEL SIGN I..MYANMAR VOWEL SIGN UU",
text! "1032..1037    ; InCB; Extend # Mn   [6] MYANMAR VOWEL SIGN AI..MYANMAR SIGN DOT BELOW",
text! "103A          ; InCB; Extend # Mn       MYANMAR SIGN ASAT",
text! "103D..103E    ; InCB; Extend # Mn   [2] MYANMAR CONSONANT SIGN MEDIAL WA..MYANMAR CONSONANT SIGN MEDIAL HA",
text! "1058..1059    ; InCB; Extend # Mn   [2] MYANMAR VOWEL SIGN VOCALIC L..MYANMAR VOWEL SIGN VOCALIC LL",
text! "105E..1060    ; InCB; Extend # Mn   [3] MYANMAR CONSONANT SIGN MON MEDIAL NA..MYANMAR CONSONANT SIGN MON MEDIAL LA",
text! "1071..1074    ; InCB; Extend # Mn   [4] MYANMAR VOWEL SIGN GEBA KAREN I..MYANMAR VOWEL SIGN KAYAH EE",
text! "1082          ; InCB; Extend # Mn       MYANMAR CONSONANT SIGN SHAN MEDIAL WA",
text! "1085..1086    ; InCB; Extend # Mn   [2] MYANMAR VOWEL SIGN SHAN E ABOVE..MYANMAR VOWEL SIGN SHAN FINAL Y",
text! "108D          ; InCB; Extend # Mn       MYANMAR SIGN SHAN COUNCIL EMPHATIC TONE"]

/-- lines 13313-13376 -/
def derivedCore208 : List Nat := [
text! "109D          ; InCB; Extend # Mn       MYANMAR VOWEL SIGN AITON AI",
text! "135D..135F    ; InCB; Extend # Mn   [3] ETHIOPIC COMBINING GEMINATION AND VOWEL LENGTH MARK..ETHIOPIC COMBINING GEMINATION MARK",
text! "1712..1714    ; InCB; Extend # Mn   [3] TAGALOG VOWEL SIGN I..TAGALOG SIGN VIRAMA",
text! "1715          ; InCB; Extend # Mc       TAGALOG SIGN PAMUDPOD",
text! "1732..1733    ; InCB; Extend # Mn   [2] HANUNOO VOWEL SIGN I..HANUNOO VOWEL SIGN U",
text! "1734          ; InCB; Extend # Mc       HANUNOO SIGN PAMUDPOD",
text! "1752..1753    ; InCB; Extend # Mn   [2] BUHID VOWEL SIGN I..BUHID VOWEL SIGN U",
text! "1772..1773    ; InCB; Extend # Mn   [2] TAGBANWA VOWEL SIGN I..TAGBANWA VOWEL SIGN U",
text! "17B4..17B5    ; InCB; Extend # Mn   [2] KHMER VOWEL INHERENT AQ..KHMER VOWEL INHERENT AA",
text! "17B7..17BD    ; InCB; Extend # Mn   [7] KHMER VOWEL SIGN I..KHMER VOWEL SIGN UA",
text! "17C6          ; InCB; Extend # Mn       KHMER SIGN NIKAHIT",
text! "17C9..17D1    ; InCB; Extend # Mn   [9] KHMER SIGN MUUSIKATOAN..KHMER SIGN VIRIAM",
text! "17D3          ; InCB; Extend # Mn       KHMER SIGN BATHAMASAT",
text! "17DD          ; InCB; Extend # Mn       KHMER SIGN ATTHACAN",
text! "180B..180D    ; InCB; Extend # Mn   [3] MONGOLIAN FREE VARIATION SELECTOR ONE..MONGOLIAN FREE VARIATION SELECTOR THREE",
text! "180F          ; InCB; Extend # Mn       MONGOLIAN FREE VARIATION SELECTOR FOUR",
text! "1885..1886    ; InCB; Extend # Mn   [2] MONGOLIAN LETTER ALI GALI BALUDA..MONGOLIAN LETTER ALI GALI THREE BALUDA",
text! "18A9          ; InCB; Extend # Mn       MONGOLIAN LETTER ALI GALI DAGALGA",
text! "1920..1922    ; InCB; Extend # Mn   [3] LIMBU VOWEL SIGN A..LIMBU VOWEL SIGN U",
text! "1927..1928    ; InCB; Extend # Mn   [2] LIMBU VOWEL SIGN E..LIMBU VOWEL SIGN O",
text! "1932          ; InCB; Extend # Mn       LIMBU SMALL LETTER ANUSVARA",
text! "1939..193B    ; InCB; Extend # Mn   [3] LIMBU SIGN MUKPHRENG..LIMBU SIGN SA-I",
text! "1A17..1A18    ; InCB; Extend # Mn   [2] BUGINESE VOWEL SIGN I..BUGINESE VOWEL SIGN U",
text! "1A1B          ; InCB; Extend # Mn       BUGINESE VOWEL SIGN AE",
text! "1A56          ; InCB; Extend # Mn       TAI THAM CONSONANT SIGN MEDIAL LA",
text! "1A58..1A5E    ; InCB; Extend # Mn   [7] TAI THAM SIGN MAI KANG LAI..TAI THAM CONSONANT SIGN SA",
text! "1A62          ; InCB; Extend # Mn       TAI THAM VOWEL SIGN MAI SAT",
text! "1A65..1A6C    ; InCB; Extend # Mn   [8] TAI THAM VOWEL SIGN I..TAI THAM VOWEL SIGN OA BELOW",
text! "1A73..1A7C    ; InCB; Extend # Mn  [10] TAI THAM VOWEL SIGN OA ABOVE..TAI THAM SIGN KHUEN-LUE KARAN",
text! "1A7F          ; InCB; Extend # Mn       TAI THAM COMBINING CRYPTOGRAMMIC DOT",
text! "1AB0..1ABD    ; InCB; Extend # Mn  [14] COMBINING DOUBLED CIRCUMFLEX ACCENT..COMBINING PARENTHESES BELOW",
text! "1ABE          ; InCB; Extend # Me       COMBINING PARENTHESES OVERLAY",
text! "1ABF..1ADD    ; InCB; Extend # Mn  [31] COMBINING LATIN SMALL LETTER W BELOW..COMBINING DOT-AND-RING BELOW",
text! "1AE0..1AEB    ; InCB; Extend # Mn  [12] COMBINING LEFT TACK ABOVE..COMBINING DOUBLE RIGHTWARDS ARROW ABOVE",
text! "1B00..1B03    ; InCB; Extend # Mn   [4] BALINESE SIGN ULU RICEM..BALINESE SIGN SURANG",
text! "1B34          ; InCB; Extend # Mn       BALINESE SIGN REREKAN",
text! "1B35          ; InCB; Extend # Mc       BALINESE VOWEL SIGN TEDUNG",
text! "1B36..1B3A    ; InCB; Extend # Mn   [5] BALINESE VOWEL SIGN ULU..BALINESE VOWEL SIGN RA REPA",
text! "1B3B          ; InCB; Extend # Mc       BALINESE VOWEL SIGN RA REPA TEDUNG",
text! "1B3C          ; InCB; Extend # Mn       BALINESE VOWEL SIGN LA LENGA",
text! "1B3D          ; InCB; Extend # Mc       BALINESE VOWEL SIGN LA LENGA TEDUNG",
text! "1B42          ; InCB; Extend # Mn       BALINESE VOWEL SIGN PEPET",
text! "1B43          ; InCB; Extend # Mc       BALINESE VOWEL SIGN PEPET TEDUNG",
text! "1B6B..1B73    ; InCB; Extend # Mn   [9] BALINESE MUSICAL SYMBOL COMBINING TEGEH..BALINESE MUSICAL SYMBOL COMBINING GONG",
text! "1B80..1B81    ; InCB; Extend # Mn   [2] SUNDANESE SIGN PANYECEK..SUNDANESE SIGN PANGLAYAR",
text! "1BA2..1BA5    ; InCB; Extend # Mn   [4] SUNDANESE CONSONANT SIGN PANYAKRA..SUNDANESE VOWEL SIGN PANYUKU",
text! "1BA8..1BA9    ; InCB; Extend # Mn   [2] SUNDANESE VOWEL SIGN PAMEPET..SUNDANESE VOWEL SIGN PANEULEUNG",
text! "1BAA          ; InCB; Extend # Mc       SUNDANESE SIGN PAMAAEH",
text! "1BAC..1BAD    ; InCB; Extend # Mn   [2] SUNDANESE CONSONANT SIGN PASANGAN MA..SUNDANESE CONSONANT SIGN PASANGAN WA",
text! "1BE6          ; InCB; Extend # Mn       BATAK SIGN TOMPI",
text! "1BE8..1BE9    ; InCB; Extend # Mn   [2] BATAK VOWEL SIGN PAKPAK E..BATAK VOWEL SIGN EE",
text! "1BED          ; InCB; Extend # Mn       BATAK VOWEL SIGN KARO O",
text! "1BEF..1BF1    ; InCB; Extend # Mn   [3] BATAK VOWEL SIGN U FOR SIMALUNGUN SA..BATAK CONSONANT SIGN H",
text! "1BF2..1BF3    ; InCB; Extend # Mc   [2] BATAK PANGOLAT..BATAK PANONGONAN",
text! "1C2C..1C33    ; InCB; Extend # Mn   [8] LEPCHA VOWEL SIGN E..LEPCHA CONSONANT SIGN T",
text! "1C36..1C37    ; InCB; Extend # Mn   [2] LEPCHA SIGN RAN..LEPCHA SIGN NUKTA",
text! "1CD0..1CD2    ; InCB; Extend # Mn   [3] VEDIC TONE KARSHANA..VEDIC TONE PRENKHA",
text! "1CD4..1CE0    ; InCB; Extend # Mn  [13] VEDIC SIGN YAJURVEDIC MIDLINE SVARITA..VEDIC TONE RIGVEDIC KASHMIRI INDEPENDENT SVARITA",
text! "1CE2..1CE8    ; InCB; Extend # Mn   [7] VEDIC SIGN VISARGA SVARITA..VEDIC SIGN VISARGA ANUDATTA WITH TAIL",
text! "1CED          ; InCB; Extend # Mn       VEDIC SIGN TIRYAK",
text! "1CF4          ; InCB; Extend # Mn       VEDIC TONE CANDRA ABOVE",
text! "1CF8..1CF9    ; InCB; Extend # Mn   [2] VEDIC TONE RING ABOVE..VEDIC TONE DOUBLE RING ABOVE",
text! "1DC0..1DFF    ; InCB; Extend # Mn  [64] COMBINING DOTTED GRAVE ACCENT..COMBINING RIGHT ARROWHEAD AND DOWN ARROWHEAD BELOW",
text! "200D          ; InCB; Extend # Cf       ZERO WIDTH JOINER"]

/-- lines 13377-13440 -/
def derivedCore209 : List Nat := [
text! "20D0..20DC    ; InCB; Extend # Mn  [13] COMBINING LEFT HARPOON ABOVE..COMBINING FOUR DOTS ABOVE",
text! "20DD..20E0    ; InCB; Extend # Me   [4] COMBINING ENCLOSING CIRCLE..COMBINING ENCLOSING CIRCLE BACKSLASH",
text! "20E1          ; InCB; Extend # Mn       COMBINING LEFT RIGHT ARROW ABOVE",
text! "20E2..20E4    ; InCB; Extend # Me   [3] COMBINING ENCLOSING SCREEN..COMBINING ENCLOSING UPWARD POINTING TRIANGLE",
text! "20E5..20F0    ; InCB; Extend # Mn  [12] COMBINING REVERSE SOLIDUS OVERLAY..COMBINING ASTERISK ABOVE",
text! "2CEF..2CF1    ; InCB; Extend # Mn   [3] COPTIC COMBINING NI ABOVE..COPTIC COMBINING SPIRITUS LENIS",
text! "2D7F          ; InCB; Extend # Mn       TIFINAGH CONSONANT JOINER",
text! "2DE0..2DFF    ; InCB; Extend # Mn  [32] COMBINING CYRILLIC LETTER BE..COMBINING CYRILLIC LETTER IOTIFIED BIG YUS",
text! "302A..302D    ; InCB; Extend # Mn   [4] IDEOGRAPHIC LEVEL TONE MARK..IDEOGRAPHIC ENTERING TONE MARK",
text! "302E..302F    ; InCB; Extend # Mc   [2] HANGUL SINGLE DOT TONE MARK..HANGUL DOUBLE DOT TONE MARK",
text! "3099..309A    ; InCB; Extend # Mn   [2] COMBINING KATAKANA-HIRAGANA VOICED SOUND MARK..COMBINING KATAKANA-HIRAGANA SEMI-VOICED SOUND MARK",
text! "A66F          ; InCB; Extend # Mn       COMBINING CYRILLIC VZMET",
text! "A670..A672    ; InCB; Extend # Me   [3] COMBINING CYRILLIC TEN MILLIONS SIGN..COMBINING CYRILLIC THOUSAND MILLIONS SIGN",
text! "A674..A67D    ; InCB; Extend # Mn  [10] COMBINING CYRILLIC LETTER UKRAINIAN IE..COMBINING CYRILLIC PAYEROK",
text! "A69E..A69F    ; InCB; Extend # Mn   [2] COMBINING CYRILLIC LETTER EF..COMBINING CYRILLIC LETTER IOTIFIED E",
text! "A6F0..A6F1    ; InCB; Extend # Mn   [2] BAMUM COMBINING MARK KOQNDON..BAMUM COMBINING MARK TUKWENTIS",
text! "A802          ; InCB; Extend # Mn       SYLOTI NAGRI SIGN DVISVARA",
text! "A806          ; InCB; Extend # Mn       SYLOTI NAGRI SIGN HASANTA",
text! "A80B          ; InCB; Extend # Mn       SYLOTI NAGRI SIGN ANUSVARA",
text! "A825..A826    ; InCB; Extend # Mn   [2] SYLOTI NAGRI VOWEL SIGN U..SYLOTI NAGRI VOWEL SIGN E",
text! "A82C          ; InCB; Extend # Mn       SYLOTI NAGRI SIGN ALTERNATE HASANTA",
text! "A8C4..A8C5    ; InCB; Extend # Mn   [2] SAURASHTRA SIGN VIRAMA..SAURASHTRA SIGN CANDRABINDU",
text! "A8E0..A8F1    ; InCB; Extend # Mn  [18] COMBINING DEVANAGARI DIGIT ZERO..COMBINING DEVANAGARI SIGN AVAGRAHA",
text! "A8FF          ; InCB; Extend # Mn       DEVANAGARI VOWEL SIGN AY",
text! "A926..A92D    ; InCB; Extend # Mn   [8] KAYAH LI VOWEL UE..KAYAH LI TONE CALYA PLOPHU",
text! "A947..A951    ; InCB; Extend # Mn  [11] REJANG VOWEL SIGN I..REJANG CONSONANT SIGN R",
text! "A953          ; InCB; Extend # Mc       REJANG VIRAMA",
text! "A980..A982    ; InCB; Extend # Mn   [3] JAVANESE SIGN PANYANGGA..JAVANESE SIGN LAYAR",
text! "A9B3          ; InCB; Extend # Mn       JAVANESE SIGN CECAK TELU",
text! "A9B6..A9B9    ; InCB; Extend # Mn   [4] JAVANESE VOWEL SIGN WULU..JAVANESE VOWEL SIGN SUKU MENDUT",
text! "A9BC..A9BD    ; InCB; Extend # Mn   [2] JAVANESE VOWEL SIGN PEPET..JAVANESE CONSONANT SIGN KERET",
text! "A9E5          ; InCB; Extend # Mn       MYANMAR SIGN SHAN SAW",
text! "AA29..AA2E    ; InCB; Extend # Mn   [6] CHAM VOWEL SIGN AA..CHAM VOWEL SIGN OE",
text! "AA31..AA32    ; InCB; Extend # Mn   [2] CHAM VOWEL SIGN AU..CHAM VOWEL SIGN UE",
text! "AA35..AA36    ; InCB; Extend # Mn   [2] CHAM CONSONANT SIGN LA..CHAM CONSONANT SIGN WA",
text! "AA43          ; InCB; Extend # Mn       CHAM CONSONANT SIGN FINAL NG",
text! "AA4C          ; InCB; Extend # Mn       CHAM CONSONANT SIGN FINAL M",
text! "AA7C          ; InCB; Extend # Mn       MYANMAR SIGN TAI LAING TONE-2",
text! "AAB0          ; InCB; Extend # Mn       TAI VIET MAI KANG",
text! "AAB2..AAB4    ; InCB; Extend # Mn   [3] TAI VIET VOWEL I..TAI VIET VOWEL U",
text! "AAB7..AAB8    ; InCB; Extend # Mn   [2] TAI VIET MAI KHIT..TAI VIET VOWEL IA",
text! "AABE..AABF    ; InCB; Extend # Mn   [2] TAI VIET VOWEL AM..TAI VIET TONE MAI EK",
text! "AAC1          ; InCB; Extend # Mn       TAI VIET TONE MAI THO",
text! "AAEC..AAED    ; InCB; Extend # Mn   [2] MEETEI MAYEK VOWEL SIGN UU..MEETEI MAYEK VOWEL SIGN AAI",
text! "ABE5          ; InCB; Extend # Mn       MEETEI MAYEK VOWEL SIGN ANAP",
text! "ABE8          ; InCB; Extend # Mn       MEETEI MAYEK VOWEL SIGN UNAP",
text! "ABED          ; InCB; Extend # Mn       MEETEI MAYEK APUN IYEK",
text! "FB1E          ; InCB; Extend # Mn       HEBREW POINT JUDEO-SPANISH VARIKA",
text! "FE00..FE0F    ; InCB; Extend # Mn  [16] VARIATION SELECTOR-1..VARIATION SELECTOR-16",
text! "FE20..FE2F    ; InCB; Extend # Mn  [16] COMBINING LIGATURE LEFT HALF..COMBINING CYRILLIC TITLO RIGHT HALF",
text! "FF9E..FF9F    ; InCB; Extend # Lm   [2] HALFWIDTH KATAKANA VOICED SOUND MARK..HALFWIDTH KATAKANA SEMI-VOICED SOUND MARK",
text! "101FD         ; InCB; Extend # Mn       PHAISTOS DISC SIGN COMBINING OBLIQUE STROKE",
text! "102E0         ; InCB; Extend # Mn       COPTIC EPACT THOUSANDS MARK",
text! "10376..1037A  ; InCB; Extend # Mn   [5] COMBINING OLD PERMIC LETTER AN..COMBINING OLD PERMIC LETTER SII",
text! "10A01..10A03  ; InCB; Extend # Mn   [3] KHAROSHTHI VOWEL SIGN I..KHAROSHTHI VOWEL SIGN VOCALIC R",
text! "10A05..10A06  ; InCB; Extend # Mn   [2] KHAROSHTHI VOWEL SIGN E..KHAROSHTHI VOWEL SIGN O",
text! "10A0C..10A0F  ; InCB; Extend # Mn   [4] KHAROSHTHI VOWEL LENGTH MARK..KHAROSHTHI SIGN VISARGA",
text! "10A38..10A3A  ; InCB; Extend # Mn   [3] KHAROSHTHI SIGN BAR ABOVE..KHAROSHTHI SIGN DOT BELOW",
text! "10AE5..10AE6  ; InCB; Extend # Mn   [2] MANICHAEAN ABBREVIATION MARK ABOVE..MANICHAEAN ABBREVIATION MARK BELOW",
text! "10D24..10D27  ; InCB; Extend # Mn   [4] HANIFI ROHINGYA SIGN HARBAHAY..HANIFI ROHINGYA SIGN TASSI",
text! "10D69..10D6D  ; InCB; Extend # Mn   [5] GARAY VOWEL SIGN E..GARAY CONSONANT NASALIZATION MARK",
text! "10EAB..10EAC  ; InCB; Extend # Mn   [2] YEZIDI COMBINING HAMZA MARK..YEZIDI COMBINING MADDA MARK",
text! "10EFA..10EFF  ; InCB; Extend # Mn   [6] ARABIC DOUBLE VERTICAL BAR BELOW..ARABIC SMALL LOW WORD MADDA",
text! "10F46..10F50  ; InCB; Extend # Mn  [11] SOGDIAN COMBINING DOT BELOW..SOGDIAN COMBINING STROKE BELOW"]

/-- lines 13441-13504 -/
def derivedCore210 : List Nat := [
text! "10F82..10F85  ; InCB; Extend # Mn   [4] OLD UYGHUR COMBINING DOT ABOVE..OLD UYGHUR COMBINING TWO DOTS BELOW",
text! "11001         ; InCB; Extend # Mn       BRAHMI SIGN ANUSVARA",
text! "11038..11046  ; InCB; Extend # Mn  [15] BRAHMI VOWEL SIGN AA..BRAHMI VIRAMA",
text! "11070         ; InCB; Extend # Mn       BRAHMI SIGN OLD TAMIL VIRAMA",
text! "11073..11074  ; InCB; Extend # Mn   [2] BRAHMI VOWEL SIGN OLD TAMIL SHORT E..BRAHMI VOWEL SIGN OLD TAMIL SHORT O",
text! "1107F..11081  ; InCB; Extend # Mn   [3] BRAHMI NUMBER JOINER..KAITHI SIGN ANUSVARA",
text! "110B3..110B6  ; InCB; Extend # Mn   [4] KAITHI VOWEL SIGN U..KAITHI VOWEL SIGN AI",
text! "110B9..110BA  ; InCB; Extend # Mn   [2] KAITHI SIGN VIRAMA..KAITHI SIGN NUKTA",
text! "110C2         ; InCB; Extend # Mn       KAITHI VOWEL SIGN VOCALIC R",
text! "11100..11102  ; InCB; Extend # Mn   [3] CHAKMA SIGN CANDRABINDU..CHAKMA SIGN VISARGA",
text! "11127..1112B  ; InCB; Extend # Mn   [5] CHAKMA VOWEL SIGN A..CHAKMA VOWEL SIGN UU",
text! "1112D..11132  ; InCB; Extend # Mn   [6] CHAKMA VOWEL SIGN AI..CHAKMA AU MARK",
text! "11134         ; InCB; Extend # Mn       CHAKMA MAAYYAA",
text! "11173         ; InCB; Extend # Mn       MAHAJANI SIGN NUKTA",
text! "11180..11181  ; InCB; Extend # Mn   [2] SHARADA SIGN CANDRABINDU..SHARADA SIGN ANUSVARA",
text! "111B6..111BE  ; InCB; Extend # Mn   [9] SHARADA VOWEL SIGN U..SHARADA VOWEL SIGN O",
text! "111C0         ; InCB; Extend # Mc       SHARADA SIGN VIRAMA",
text! "111C9..111CC  ; InCB; Extend # Mn   [4] SHARADA SANDHI MARK..SHARADA EXTRA SHORT VOWEL MARK",
text! "111CF         ; InCB; Extend # Mn       SHARADA SIGN INVERTED CANDRABINDU",
text! "1122F..11231  ; InCB; Extend # Mn   [3] KHOJKI VOWEL SIGN U..KHOJKI VOWEL SIGN AI",
text! "11234         ; InCB; Extend # Mn       KHOJKI SIGN ANUSVARA",
text! "11235         ; InCB; Extend # Mc       KHOJKI SIGN VIRAMA",
text! "11236..11237  ; InCB; Extend # Mn   [2] KHOJKI SIGN NUKTA..KHOJKI SIGN SHADDA",
text! "1123E         ; InCB; Extend # Mn       KHOJKI SIGN SUKUN",
text! "11241         ; InCB; Extend # Mn       KHOJKI VOWEL SIGN VOCALIC R",
text! "112DF         ; InCB; Extend # Mn       KHUDAWADI SIGN ANUSVARA",
text! "112E3..112EA  ; InCB; Extend # Mn   [8] KHUDAWADI VOWEL SIGN U..KHUDAWADI SIGN VIRAMA",
text! "11300..11301  ; InCB; Extend # Mn   [2] GRANTHA SIGN COMBINING ANUSVARA ABOVE..GRANTHA SIGN CANDRABINDU",
text! "1133B..1133C  ; InCB; Extend # Mn   [2] COMBINING BINDU BELOW..GRANTHA SIGN NUKTA",
text! "1133E         ; InCB; Extend # Mc       GRANTHA VOWEL SIGN AA",
text! "11340         ; InCB; Extend # Mn       GRANTHA VOWEL SIGN II",
text! "1134D         ; InCB; Extend # Mc       GRANTHA SIGN VIRAMA",
text! "11357         ; InCB; Extend # Mc       GRANTHA AU LENGTH MARK",
text! "11366..1136C  ; InCB; Extend # Mn   [7] COMBINING GRANTHA DIGIT ZERO..COMBINING GRANTHA DIGIT SIX",
text! "11370..11374  ; InCB; Extend # Mn   [5] COMBINING GRANTHA LETTER A..COMBINING GRANTHA LETTER PA",
text! "113B8         ; InCB; Extend # Mc       TULU-TIGALARI VOWEL SIGN AA",
text! "113BB..113C0  ; InCB; Extend # Mn   [6] TULU-TIGALARI VOWEL SIGN U..TULU-TIGALARI VOWEL SIGN VOCALIC LL",
text! "113C2         ; InCB; Extend # Mc       TULU-TIGALARI VOWEL SIGN EE",
text! "113C5         ; InCB; Extend # Mc       TULU-TIGALARI VOWEL SIGN AI",
text! "113C7..113C9  ; InCB; Extend # Mc   [3] TULU-TIGALARI VOWEL SIGN OO..TULU-TIGALARI AU LENGTH MARK",
text! "113CE         ; InCB; Extend # Mn       TULU-TIGALARI SIGN VIRAMA",
text! "113CF         ; InCB; Extend # Mc       TULU-TIGALARI SIGN LOOPED VIRAMA",
text! "113D2         ; InCB; Extend # Mn       TULU-TIGALARI GEMINATION MARK",
text! "113E1..113E2  ; InCB; Extend # Mn   [2] TULU-TIGALARI VEDIC TONE SVARITA..TULU-TIGALARI VEDIC TONE ANUDATTA",
text! "11438..1143F  ; InCB; Extend # Mn   [8] NEWA VOWEL SIGN U..NEWA VOWEL SIGN AI",
text! "11442..11444  ; InCB; Extend # Mn   [3] NEWA SIGN VIRAMA..NEWA SIGN ANUSVARA",
text! "11446         ; InCB; Extend # Mn       NEWA SIGN NUKTA",
text! "1145E         ; InCB; Extend # Mn       NEWA SANDHI MARK",
text! "114B0         ; InCB; Extend # Mc       TIRHUTA VOWEL SIGN AA",
text! "114B3..114B8  ; InCB; Extend # Mn   [6] TIRHUTA VOWEL SIGN U..TIRHUTA VOWEL SIGN VOCALIC LL",
text! "114BA         ; InCB; Extend # Mn       TIRHUTA VOWEL SIGN SHORT E",
text! "114BD         ; InCB; Extend # Mc       TIRHUTA VOWEL SIGN SHORT O",
text! "114BF..114C0  ; InCB; Extend # Mn   [2] TIRHUTA SIGN CANDRABINDU..TIRHUTA SIGN ANUSVARA",
text! "114C2..114C3  ; InCB; Extend # Mn   [2] TIRHUTA SIGN VIRAMA..TIRHUTA SIGN NUKTA",
text! "115AF         ; InCB; Extend # Mc       SIDDHAM VOWEL SIGN AA",
text! "115B2..115B5  ; InCB; Extend # Mn   [4] SIDDHAM VOWEL SIGN U..SIDDHAM VOWEL SIGN VOCALIC RR",
text! "115BC..115BD  ; InCB; Extend # Mn   [2] SIDDHAM SIGN CANDRABINDU..SIDDHAM SIGN ANUSVARA",
text! "115BF..115C0  ; InCB; Extend # Mn   [2] SIDDHAM SIGN VIRAMA..SIDDHAM SIGN NUKTA",
text! "115DC..115DD  ; InCB; Extend # Mn   [2] SIDDHAM VOWEL SIGN ALTERNATE U..SIDDHAM VOWEL SIGN ALTERNATE UU",
text! "11633..1163A  ; InCB; Extend # Mn   [8] MODI VOWEL SIGN U..MODI VOWEL SIGN AI",
text! "1163D         ; InCB; Extend # Mn       MODI SIGN ANUSVARA",
text! "1163F..11640  ; InCB; Extend # Mn   [2] MODI SIGN VIRAMA..MODI SIGN ARDHACANDRA",
text! "116AB         ; InCB; Extend # Mn       TAKRI SIGN ANUSVARA",
text! "116AD         ; InCB; Extend # Mn       TAKRI VOWEL SIGN AA"]

/-- lines 13505-13568 -/
def derivedCore211 : List Nat := [
text! "116B0..116B5  ; InCB; Extend # Mn   [6] TAKRI VOWEL SIGN U..TAKRI VOWEL SIGN AU",
text! "116B6         ; InCB; Extend # Mc       TAKRI SIGN VIRAMA",
text! "116B7         ; InCB; Extend # Mn       TAKRI SIGN NUKTA",
text! "1171D         ; InCB; Extend # Mn       AHOM CONSONANT SIGN MEDIAL LA",
text! "1171F         ; InCB; Extend # Mn       AHOM CONSONANT SIGN MEDIAL LIGATING RA",
text! "11722..11725  ; InCB; Extend # Mn   [4] AHOM VOWEL SIGN I..AHOM VOWEL SIGN UU",
text! "11727..1172B  ; InCB; Extend # Mn   [5] AHOM VOWEL SIGN AW..AHOM SIGN KILLER",
text! "1182F..11837  ; InCB; Extend # Mn   [9] DOGRA VOWEL SIGN U..DOGRA SIGN ANUSVARA",
text! "11839..1183A  ; InCB; Extend # Mn   [2] DOGRA SIGN VIRAMA..DOGRA SIGN NUKTA",
text! "11930         ; InCB; Extend # Mc       DIVES AKURU VOWEL SIGN AA",
text! "1193B..1193C  ; InCB; Extend # Mn   [2] DIVES AKURU SIGN ANUSVARA..DIVES AKURU SIGN CANDRABINDU",
text! "1193D         ; InCB; Extend # Mc       DIVES AKURU SIGN HALANTA",
text! "11943         ; InCB; Extend # Mn       DIVES AKURU SIGN NUKTA",
text! "119D4..119D7  ; InCB; Extend # Mn   [4] NANDINAGARI VOWEL SIGN U..NANDINAGARI VOWEL SIGN VOCALIC RR",
text! "119DA..119DB  ; InCB; Extend # Mn   [2] NANDINAGARI VOWEL SIGN E..NANDINAGARI VOWEL SIGN AI",
text! "119E0         ; InCB; Extend # Mn       NANDINAGARI SIGN VIRAMA",
text! "11A01..11A0A  ; InCB; Extend # Mn  [10] ZANABAZAR SQUARE VOWEL SIGN I..ZANABAZAR SQUARE VOWEL LENGTH MARK",
text! "11A33..11A38  ; InCB; Extend # Mn   [6] ZANABAZAR SQUARE FINAL CONSONANT MARK..ZANABAZAR SQUARE SIGN ANUSVARA",
text! "11A3B..11A3E  ; InCB; Extend # Mn   [4] ZANABAZAR SQUARE CLUSTER-FINAL LETTER YA..ZANABAZAR SQUARE CLUSTER-FINAL LETTER VA",
text! "11A51..11A56  ; InCB; Extend # Mn   [6] SOYOMBO VOWEL SIGN I..SOYOMBO VOWEL SIGN OE",
text! "11A59..11A5B  ; InCB; Extend # Mn   [3] SOYOMBO VOWEL SIGN VOCALIC R..SOYOMBO VOWEL LENGTH MARK",
text! "11A8A..11A96  ; InCB; Extend # Mn  [13] SOYOMBO FINAL CONSONANT SIGN G..SOYOMBO SIGN ANUSVARA",
text! "11A98         ; InCB; Extend # Mn       SOYOMBO GEMINATION MARK",
text! "11B60         ; InCB; Extend # Mn       SHARADA VOWEL SIGN OE",
text! "11B62..11B64  ; InCB; Extend # Mn   [3] SHARADA VOWEL SIGN UE..SHARADA VOWEL SIGN SHORT E",
text! "11B66         ; InCB; Extend # Mn       SHARADA VOWEL SIGN CANDRA E",
text! "11C30..11C36  ; InCB; Extend # Mn   [7] BHAIKSUKI VOWEL SIGN I..BHAIKSUKI VOWEL SIGN VOCALIC L",
text! "11C38..11C3D  ; InCB; Extend # Mn   [6] BHAIKSUKI VOWEL SIGN E..BHAIKSUKI SIGN ANUSVARA",
text! "11C3F         ; InCB; Extend # Mn       BHAIKSUKI SIGN VIRAMA",
text! "11C92..11CA7  ; InCB; Extend # Mn  [22] MARCHEN SUBJOINED LETTER KA..MARCHEN SUBJOINED LETTER ZA",
text! "11CAA..11CB0  ; InCB; Extend # Mn   [7] MARCHEN SUBJOINED LETTER RA..MARCHEN VOWEL SIGN AA",
text! "11CB2..11CB3  ; InCB; Extend # Mn   [2] MARCHEN VOWEL SIGN U..MARCHEN VOWEL SIGN E",
text! "11CB5..11CB6  ; InCB; Extend # Mn   [2] MARCHEN SIGN ANUSVARA..MARCHEN SIGN CANDRABINDU",
text! "11D31..11D36  ; InCB; Extend # Mn   [6] MASARAM GONDI VOWEL SIGN AA..MASARAM GONDI VOWEL SIGN VOCALIC R",
text! "11D3A         ; InCB; Extend # Mn       MASARAM GONDI VOWEL SIGN E",
text! "11D3C..11D3D  ; InCB; Extend # Mn   [2] MASARAM GONDI VOWEL SIGN AI..MASARAM GONDI VOWEL SIGN O",
text! "11D3F..11D45  ; InCB; Extend # Mn   [7] MASARAM GONDI VOWEL SIGN AU..MASARAM GONDI VIRAMA",
text! "11D47         ; InCB; Extend # Mn       MASARAM GONDI RA-KARA",
text! "11D90..11D91  ; InCB; Extend # Mn   [2] GUNJALA GONDI VOWEL SIGN EE..GUNJALA GONDI VOWEL SIGN AI",
text! "11D95         ; InCB; Extend # Mn       GUNJALA GONDI SIGN ANUSVARA",
text! "11D97         ; InCB; Extend # Mn       GUNJALA GONDI VIRAMA",
text! "11EF3..11EF4  ; InCB; Extend # Mn   [2] MAKASAR VOWEL SIGN I..MAKASAR VOWEL SIGN U",
text! "11F00..11F01  ; InCB; Extend # Mn   [2] KAWI SIGN CANDRABINDU..KAWI SIGN ANUSVARA",
text! "11F36..11F3A  ; InCB; Extend # Mn   [5] KAWI VOWEL SIGN I..KAWI VOWEL SIGN VOCALIC R",
text! "11F40         ; InCB; Extend # Mn       KAWI VOWEL SIGN EU",
text! "11F41         ; InCB; Extend # Mc       KAWI SIGN KILLER",
text! "11F5A         ; InCB; Extend # Mn       KAWI SIGN NUKTA",
text! "13440         ; InCB; Extend # Mn       EGYPTIAN HIEROGLYPH MIRROR HORIZONTALLY",
text! "13447..13455  ; InCB; Extend # Mn  [15] EGYPTIAN HIEROGLYPH MODIFIER DAMAGED AT TOP START..EGYPTIAN HIEROGLYPH MODIFIER DAMAGED",
text! "1611E..16129  ; InCB; Extend # Mn  [12] GURUNG KHEMA VOWEL SIGN AA..GURUNG KHEMA VOWEL LENGTH MARK",
text! "1612D..1612F  ; InCB; Extend # Mn   [3] GURUNG KHEMA SIGN ANUSVARA..GURUNG KHEMA SIGN THOLHOMA",
text! "16AF0..16AF4  ; InCB; Extend # Mn   [5] BASSA VAH COMBINING HIGH TONE..BASSA VAH COMBINING HIGH-LOW TONE",
text! "16B30..16B36  ; InCB; Extend # Mn   [7] PAHAWH HMONG MARK CIM TUB..PAHAWH HMONG MARK CIM TAUM",
text! "16F4F         ; InCB; Extend # Mn       MIAO SIGN CONSONANT MODIFIER BAR",
text! "16F8F..16F92  ; InCB; Extend # Mn   [4] MIAO TONE RIGHT..MIAO TONE BELOW",
text! "16FE4         ; InCB; Extend # Mn       KHITAN SMALL SCRIPT FILLER",
text! "16FF0..16FF1  ; InCB; Extend # Mc   [2] VIETNAMESE ALTERNATE READING MARK CA..VIETNAMESE ALTERNATE READING MARK NHAY",
text! "1BC9D..1BC9E  ; InCB; Extend # Mn   [2] DUPLOYAN THICK LETTER SELECTOR..DUPLOYAN DOUBLE MARK",
text! "1CF00..1CF2D  ; InCB; Extend # Mn  [46] ZNAMENNY COMBINING MARK GORAZDO NIZKO S KRYZHEM ON LEFT..ZNAMENNY COMBINING MARK KRYZH ON LEFT",
text! "1CF30..1CF46  ; InCB; Extend # Mn  [23] ZNAMENNY COMBINING TONAL RANGE MARK MRACHNO..ZNAMENNY PRIZNAK MODIFIER ROG",
text! "1D165..1D166  ; InCB; Extend # Mc   [2] MUSICAL SYMBOL COMBINING STEM..MUSICAL SYMBOL COMBINING SPRECHGESANG STEM",
text! "1D167..1D169  ; InCB; Extend # Mn   [3] MUSICAL SYMBOL COMBINING TREMOLO-1..MUSICAL SYMBOL COMBINING TREMOLO-3",
text! "1D16D..1D172  ; InCB; Extend # Mc   [6] MUSICAL SYMBOL COMBINING AUGMENTATION DOT..MUSICAL SYMBOL COMBINING FLAG-5",
text! "1D17B..1D182  ; InCB; Extend # Mn   [8] MUSICAL SYMBOL COMBINING ACCENT..MUSICAL SYMBOL COMBINING LOURE"]

/-- lines 13569-13601 -/
def derivedCore212 : List Nat := [
text! "1D185..1D18B  ; InCB; Extend # Mn   [7] MUSICAL SYMBOL COMBINING DOIT..MUSICAL SYMBOL COMBINING TRIPLE TONGUE",
text! "1D1AA..1D1AD  ; InCB; Extend # Mn   [4] MUSICAL SYMBOL COMBINING DOWN BOW..MUSICAL SYMBOL COMBINING SNAP PIZZICATO",
text! "1D242..1D244  ; InCB; Extend # Mn   [3] COMBINING GREEK MUSICAL TRISEME..COMBINING GREEK MUSICAL PENTASEME",
text! "1DA00..1DA36  ; InCB; Extend # Mn  [55] SIGNWRITING HEAD RIM..SIGNWRITING AIR SUCKING IN",
text! "1DA3B..1DA6C  ; InCB; Extend # Mn  [50] SIGNWRITING MOUTH CLOSED NEUTRAL..SIGNWRITING EXCITEMENT",
text! "1DA75         ; InCB; Extend # Mn       SIGNWRITING UPPER BODY TILTING FROM HIP JOINTS",
text! "1DA84         ; InCB; Extend # Mn       SIGNWRITING LOCATION HEAD NECK",
text! "1DA9B..1DA9F  ; InCB; Extend # Mn   [5] SIGNWRITING FILL MODIFIER-2..SIGNWRITING FILL MODIFIER-6",
text! "1DAA1..1DAAF  ; InCB; Extend # Mn  [15] SIGNWRITING ROTATION MODIFIER-2..SIGNWRITING ROTATION MODIFIER-16",
text! "1E000..1E006  ; InCB; Extend # Mn   [7] COMBINING GLAGOLITIC LETTER AZU..COMBINING GLAGOLITIC LETTER ZHIVETE",
text! "1E008..1E018  ; InCB; Extend # Mn  [17] COMBINING GLAGOLITIC LETTER ZEMLJA..COMBINING GLAGOLITIC LETTER HERU",
text! "1E01B..1E021  ; InCB; Extend # Mn   [7] COMBINING GLAGOLITIC LETTER SHTA..COMBINING GLAGOLITIC LETTER YATI",
text! "1E023..1E024  ; InCB; Extend # Mn   [2] COMBINING GLAGOLITIC LETTER YU..COMBINING GLAGOLITIC LETTER SMALL YUS",
text! "1E026..1E02A  ; InCB; Extend # Mn   [5] COMBINING GLAGOLITIC LETTER YO..COMBINING GLAGOLITIC LETTER FITA",
text! "1E08F         ; InCB; Extend # Mn       COMBINING CYRILLIC SMALL LETTER BYELORUSSIAN-UKRAINIAN I",
text! "1E130..1E136  ; InCB; Extend # Mn   [7] NYIAKENG PUACHUE HMONG TONE-B..NYIAKENG PUACHUE HMONG TONE-D",
text! "1E2AE         ; InCB; Extend # Mn       TOTO SIGN RISING TONE",
text! "1E2EC..1E2EF  ; InCB; Extend # Mn   [4] WANCHO TONE TUP..WANCHO TONE KOINI",
text! "1E4EC..1E4EF  ; InCB; Extend # Mn   [4] NAG MUNDARI SIGN MUHOR..NAG MUNDARI SIGN SUTUH",
text! "1E5EE..1E5EF  ; InCB; Extend # Mn   [2] OL ONAL SIGN MU..OL ONAL SIGN IKIR",
text! "1E6E3         ; InCB; Extend # Mn       TAI YO SIGN UE",
text! "1E6E6         ; InCB; Extend # Mn       TAI YO SIGN AU",
text! "1E6EE..1E6EF  ; InCB; Extend # Mn   [2] TAI YO SIGN AY..TAI YO SIGN ANG",
text! "1E6F5         ; InCB; Extend # Mn       TAI YO SIGN OM",
text! "1E8D0..1E8D6  ; InCB; Extend # Mn   [7] MENDE KIKAKUI COMBINING NUMBER TEENS..MENDE KIKAKUI COMBINING NUMBER MILLIONS",
text! "1E944..1E94A  ; InCB; Extend # Mn   [7] ADLAM ALIF LENGTHENER..ADLAM NUKTA",
text! "1F3FB..1F3FF  ; InCB; Extend # Sk   [5] EMOJI MODIFIER FITZPATRICK TYPE-1-2..EMOJI MODIFIER FITZPATRICK TYPE-6",
text! "E0020..E007F  ; InCB; Extend # Cf  [96] TAG SPACE..CANCEL TAG",
text! "E0100..E01EF  ; InCB; Extend # Mn [240] VARIATION SELECTOR-17..VARIATION SELECTOR-256",
text! "",
text! "# Total code points: 2217",
text! "",
text! "# EOF"]

/-- The lines of the file, in parts of 64 lines. -/
def derivedCore : List (List Nat) := [derivedCore0, derivedCore1, derivedCore2, derivedCore3, derivedCore4, derivedCore5, derivedCore6, derivedCore7, derivedCore8, derivedCore9, derivedCore10, derivedCore11, derivedCore12, derivedCore13, derivedCore14, derivedCore15, derivedCore16, derivedCore17, derivedCore18, derivedCore19, derivedCore20, derivedCore21, derivedCore22, derivedCore23, derivedCore24, derivedCore25, derivedCore26, derivedCore27, derivedCore28, derivedCore29, derivedCore30, derivedCore31, derivedCore32, derivedCore33, derivedCore34, derivedCore35, derivedCore36, derivedCore37, derivedCore38, derivedCore39, derivedCore40, derivedCore41, derivedCore42, derivedCore43, derivedCore44, derivedCore45, derivedCore46, derivedCore47, derivedCore48, derivedCore49, derivedCore50, derivedCore51, derivedCore52, derivedCore53, derivedCore54, derivedCore55, derivedCore56, derivedCore57, derivedCore58, derivedCore59, derivedCore60, derivedCore61, derivedCore62, derivedCore63, derivedCore64, derivedCore65, derivedCore66, derivedCore67, derivedCore68, derivedCore69, derivedCore70, derivedCore71, derivedCore72, derivedCore73, derivedCore74, derivedCore75, derivedCore76, derivedCore77, derivedCore78, derivedCore79, derivedCore80, derivedCore81, derivedCore82, derivedCore83, derivedCore84, derivedCore85, derivedCore86, derivedCore87, derivedCore88, derivedCore89, derivedCore90, derivedCore91, derivedCore92, derivedCore93, derivedCore94, derivedCore95, derivedCore96, derivedCore97, derivedCore98, derivedCore99, derivedCore100, derivedCore101, derivedCore102, derivedCore103, derivedCore104, derivedCore105, derivedCore106, derivedCore107, derivedCore108, derivedCore109, derivedCore110, derivedCore111, derivedCore112, derivedCore113, derivedCore114, derivedCore115, derivedCore116, derivedCore117, derivedCore118, derivedCore119, derivedCore120, derivedCore121, derivedCore122, derivedCore123, derivedCore124, derivedCore125, derivedCore126, derivedCore127, derivedCore128, derivedCore129, derivedCore130, derivedCore131, derivedCore132, derivedCore133, derivedCore134, derivedCore135, derivedCore136, derivedCore137, derivedCore138, derivedCore139, derivedCore140, derivedCore141, derivedCore142, derivedCore143, derivedCore144, derivedCore145, derivedCore146, derivedCore147, derivedCore148, derivedCore149, derivedCore150, derivedCore151, derivedCore152, derivedCore153, derivedCore154, derivedCore155, derivedCore156, derivedCore157, derivedCore158, derivedCore159, derivedCore160, derivedCore161, derivedCore162, derivedCore163, derivedCore164, derivedCore165, derivedCore166, derivedCore167, derivedCore168, derivedCore169, derivedCore170, derivedCore171, derivedCore172, derivedCore173, derivedCore174, derivedCore175, derivedCore176, derivedCore177, derivedCore178, derivedCore179, derivedCore180, derivedCore181, derivedCore182, derivedCore183, derivedCore184, derivedCore185, derivedCore186, derivedCore187, derivedCore188, derivedCore189, derivedCore190, derivedCore191, derivedCore192, derivedCore193, derivedCore194, derivedCore195, derivedCore196, derivedCore197, derivedCore198, derivedCore199, derivedCore200, derivedCore201, derivedCore202, derivedCore203, derivedCore204, derivedCore205, derivedCore206, derivedCore207, derivedCore208, derivedCore209, derivedCore210, derivedCore211, derivedCore212]

end Textseg.Text
