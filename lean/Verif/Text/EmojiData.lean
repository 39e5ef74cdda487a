import Verif.Model.Text
/-!
# The text of textseg/internal/charprops/ucd/emoji/emoji-data.txt

Generated by tools/gen_text.py.
-/

namespace Textseg.Text

/-- lines 1-64 -/
def emojiData0 : List Nat := [
text! "# emoji-data.txt",
text! "# Date: 2025-07-25, 17:54:31 GMT",
text! "# © 2025 Unicode®, Inc.",
text! "# Unicode and the Unicode Logo are registered trademarks of Unicode, Inc. in the U.S. and other countries.",
text! "# For terms of use and license, see https://www.unicode.org/terms_of_use.html",
text! "#",
text! "# Emoji Data for UTS #51",
text! "# Version: 17.0",
text! "#",
text! "# For documentation and usage, see https://www.unicode.org/reports/tr51",
text! "#",
text! "# Format: ",
text! "# <codepoint(s)> ; <property> # <comments> ",
text! "# Note: there is no guarantee as to the structure of whitespace or comments",
text! "#",
text! "# Characters and sequences are listed in code point order. Users should be shown a more natural order.",
text! "# See the CLDR collation order for Emoji.",
text! "",
text! "",
text! "# ================================================",
text! "",
text! "# All omitted code points have Emoji=No",
text! "",
text! "0023          ; Emoji                # E0.0   [1] (#️)       hash sign",
text! "002A          ; Emoji                # E0.0   [1] (*️)       asterisk",
text! "0030..0039    ; Emoji                # E0.0  [10] (0️..9️)    digit zero..digit nine",
text! "00A9          ; Emoji                # E0.6   [1] (©️)       copyright",
text! "00AE          ; Emoji                # E0.6   [1] (®️)       registered",
text! "203C          ; Emoji                # E0.6   [1] (‼️)       double exclamation mark",
text! "2049          ; Emoji                # E0.6   [1] (⁉️)       exclamation question mark",
text! "2122          ; Emoji                # E0.6   [1] (™️)       trade mark",
text! "2139          ; Emoji                # E0.6   [1] (ℹ️)       information",
text! "2194..2199    ; Emoji                # E0.6   [6] (↔️..↙️)    left-right arrow..down-left arrow",
text! "21A9..21AA    ; Emoji                # E0.6   [2] (↩️..↪️)    right arrow curving left..left arrow curving right",
text! "231A..231B    ; Emoji                # E0.6   [2] (⌚..⌛)    watch..hourglass done",
text! "2328          ; Emoji                # E1.0   [1] (⌨️)       keyboard",
text! "23CF          ; Emoji                # E1.0   [1] (⏏️)       eject button",
text! "23E9..23EC    ; Emoji                # E0.6   [4] (⏩..⏬)    fast-forward button..fast down button",
text! "23ED..23EE    ; Emoji                # E0.7   [2] (⏭️..⏮️)    next track button..last track button",
text! "23EF          ; Emoji                # E1.0   [1] (⏯️)       play or pause button",
text! "23F0          ; Emoji                # E0.6   [1] (⏰)       alarm clock",
text! "23F1..23F2    ; Emoji                # E1.0   [2] (⏱️..⏲️)    stopwatch..timer clock",
text! "23F3          ; Emoji                # E0.6   [1] (⏳)       hourglass not done",
text! "23F8..23FA    ; Emoji                # E0.7   [3] (⏸️..⏺️)    pause button..record button",
text! "24C2          ; Emoji                # E0.6   [1] (Ⓜ️)       circled M",
text! "25AA..25AB    ; Emoji                # E0.6   [2] (▪️..▫️)    black small square..white small square",
text! "25B6          ; Emoji                # E0.6   [1] (▶️)       play button",
text! "25C0          ; Emoji                # E0.6   [1] (◀️)       reverse button",
text! "25FB..25FE    ; Emoji                # E0.6   [4] (◻️..◾)    white medium square..black medium-small square",
text! "2600..2601    ; Emoji                # E0.6   [2] (☀️..☁️)    sun..cloud",
text! "2602..2603    ; Emoji                # E0.7   [2] (☂️..☃️)    umbrella..snowman",
text! "2604          ; Emoji                # E1.0   [1] (☄️)       comet",
text! "260E          ; Emoji                # E0.6   [1] (☎️)       telephone",
text! "2611          ; Emoji                # E0.6   [1] (☑️)       check box with check",
text! "2614..2615    ; Emoji                # E0.6   [2] (☔..☕)    umbrella with rain drops..hot beverage",
text! "2618          ; Emoji                # E1.0   [1] (☘️)       shamrock",
text! "261D          ; Emoji                # E0.6   [1] (☝️)       index pointing up",
text! "2620          ; Emoji                # E1.0   [1] (☠️)       skull and crossbones",
text! "2622..2623    ; Emoji                # E1.0   [2] (☢️..☣️)    radioactive..biohazard",
text! "2626          ; Emoji                # E1.0   [1] (☦️)       orthodox cross",
text! "262A          ; Emoji                # E0.7   [1] (☪️)       star and crescent",
text! "262E          ; Emoji                # E1.0   [1] (☮️)       peace symbol",
text! "262F          ; Emoji                # E0.7   [1] (☯️)       yin yang",
text! "2638..2639    ; Emoji                # E0.7   [2] (☸️..☹️)    wheel of dharma..frowning face"]

/-- lines 65-128 -/
def emojiData1 : List Nat := [
text! "263A          ; Emoji                # E0.6   [1] (☺️)       smiling face",
text! "2640          ; Emoji                # E4.0   [1] (♀️)       female sign",
text! "2642          ; Emoji                # E4.0   [1] (♂️)       male sign",
text! "2648..2653    ; Emoji                # E0.6  [12] (♈..♓)    Aries..Pisces",
text! "265F          ; Emoji                # E11.0  [1] (♟️)       chess pawn",
text! "2660          ; Emoji                # E0.6   [1] (♠️)       spade suit",
text! "2663          ; Emoji                # E0.6   [1] (♣️)       club suit",
text! "2665..2666    ; Emoji                # E0.6   [2] (♥️..♦️)    heart suit..diamond suit",
text! "2668          ; Emoji                # E0.6   [1] (♨️)       hot springs",
text! "267B          ; Emoji                # E0.6   [1] (♻️)       recycling symbol",
text! "267E          ; Emoji                # E11.0  [1] (♾️)       infinity",
text! "267F          ; Emoji                # E0.6   [1] (♿)       wheelchair symbol",
text! "2692          ; Emoji                # E1.0   [1] (⚒️)       hammer and pick",
text! "2693          ; Emoji                # E0.6   [1] (⚓)       anchor",
text! "2694          ; Emoji                # E1.0   [1] (⚔️)       crossed swords",
text! "2695          ; Emoji                # E4.0   [1] (⚕️)       medical symbol",
text! "2696..2697    ; Emoji                # E1.0   [2] (⚖️..⚗️)    balance scale..alembic",
text! "2699          ; Emoji                # E1.0   [1] (⚙️)       gear",
text! "269B..269C    ; Emoji                # E1.0   [2] (⚛️..⚜️)    atom symbol..fleur-de-lis",
text! "26A0..26A1    ; Emoji                # E0.6   [2] (⚠️..⚡)    warning..high voltage",
text! "26A7          ; Emoji                # E13.0  [1] (⚧️)       transgender symbol",
text! "26AA..26AB    ; Emoji                # E0.6   [2] (⚪..⚫)    white circle..black circle",
text! "26B0..26B1    ; Emoji                # E1.0   [2] (⚰️..⚱️)    coffin..funeral urn",
text! "26BD..26BE    ; Emoji                # E0.6   [2] (⚽..⚾)    soccer ball..baseball",
text! "26C4..26C5    ; Emoji                # E0.6   [2] (⛄..⛅)    snowman without snow..sun behind cloud",
text! "26C8          ; Emoji                # E0.7   [1] (⛈️)       cloud with lightning and rain",
text! "26CE          ; Emoji                # E0.6   [1] (⛎)       Ophiuchus",
text! "26CF          ; Emoji                # E0.7   [1] (⛏️)       pick",
text! "26D1          ; Emoji                # E0.7   [1] (⛑️)       rescue worker’s helmet",
text! "26D3          ; Emoji                # E0.7   [1] (⛓️)       chains",
text! "26D4          ; Emoji                # E0.6   [1] (⛔)       no entry",
text! "26E9          ; Emoji                # E0.7   [1] (⛩️)       shinto shrine",
text! "26EA          ; Emoji                # E0.6   [1] (⛪)       church",
text! "26F0..26F1    ; Emoji                # E0.7   [2] (⛰️..⛱️)    mountain..umbrella on ground",
text! "26F2..26F3    ; Emoji                # E0.6   [2] (⛲..⛳)    fountain..flag in hole",
text! "26F4          ; Emoji                # E0.7   [1] (⛴️)       ferry",
text! "26F5          ; Emoji                # E0.6   [1] (⛵)       sailboat",
text! "26F7..26F9    ; Emoji                # E0.7   [3] (⛷️..⛹️)    skier..person bouncing ball",
text! "26FA          ; Emoji                # E0.6   [1] (⛺)       tent",
text! "26FD          ; Emoji                # E0.6   [1] (⛽)       fuel pump",
text! "2702          ; Emoji                # E0.6   [1] (✂️)       scissors",
text! "2705          ; Emoji                # E0.6   [1] (✅)       check mark button",
text! "2708..270C    ; Emoji                # E0.6   [5] (✈️..✌️)    airplane..victory hand",
text! "270D          ; Emoji                # E0.7   [1] (✍️)       writing hand",
text! "270F          ; Emoji                # E0.6   [1] (✏️)       pencil",
text! "2712          ; Emoji                # E0.6   [1] (✒️)       black nib",
text! "2714          ; Emoji                # E0.6   [1] (✔️)       check mark",
text! "2716          ; Emoji                # E0.6   [1] (✖️)       multiply",
text! "271D          ; Emoji                # E0.7   [1] (✝️)       latin cross",
text! "2721          ; Emoji                # E0.7   [1] (✡️)       star of David",
text! "2728          ; Emoji                # E0.6   [1] (✨)       sparkles",
text! "2733..2734    ; Emoji                # E0.6   [2] (✳️..✴️)    eight-spoked asterisk..eight-pointed star",
text! "2744          ; Emoji                # E0.6   [1] (❄️)       snowflake",
text! "2747          ; Emoji                # E0.6   [1] (❇️)       sparkle",
text! "274C          ; Emoji                # E0.6   [1] (❌)       cross mark",
text! "274E          ; Emoji                # E0.6   [1] (❎)       cross mark button",
text! "2753..2755    ; Emoji                # E0.6   [3] (❓..❕)    red question mark..white exclamation mark",
text! "2757          ; Emoji                # E0.6   [1] (❗)       red exclamation mark",
text! "2763          ; Emoji                # E1.0   [1] (❣️)       heart exclamation",
text! "2764          ; Emoji                # E0.6   [1] (❤️)       red heart",
text! "2795..2797    ; Emoji                # E0.6   [3] (➕..➗)    plus..divide",
text! "27A1          ; Emoji                # E0.6   [1] (➡️)       right arrow",
text! "27B0          ; Emoji                # E0.6   [1] (➰)       curly loop",
text! "27BF          ; Emoji                # E1.0   [1] (➿)       double curly loop"]

/-- lines 129-192 -/
def emojiData2 : List Nat := [
text! "2934..2935    ; Emoji                # E0.6   [2] (⤴️..⤵️)    right arrow curving up..right arrow curving down",
text! "2B05..2B07    ; Emoji                # E0.6   [3] (⬅️..⬇️)    left arrow..down arrow",
text! "2B1B..2B1C    ; Emoji                # E0.6   [2] (⬛..⬜)    black large square..white large square",
text! "2B50          ; Emoji                # E0.6   [1] (⭐)       star",
text! "2B55          ; Emoji                # E0.6   [1] (⭕)       hollow red circle",
text! "3030          ; Emoji                # E0.6   [1] (〰️)       wavy dash",
text! "303D          ; Emoji                # E0.6   [1] (〽️)       part alternation mark",
text! "3297          ; Emoji                # E0.6   [1] (㊗️)       Japanese “congratulations” button",
text! "3299          ; Emoji                # E0.6   [1] (㊙️)       Japanese “secret” button",
text! "1F004         ; Emoji                # E0.6   [1] (🀄)       mahjong red dragon",
text! "1F0CF         ; Emoji                # E0.6   [1] (🃏)       joker",
text! "1F170..1F171  ; Emoji                # E0.6   [2] (🅰️..🅱️)    A button (blood type)..B button (blood type)",
text! "1F17E..1F17F  ; Emoji                # E0.6   [2] (🅾️..🅿️)    O button (blood type)..P button",
text! "1F18E         ; Emoji                # E0.6   [1] (🆎)       AB button (blood type)",
text! "1F191..1F19A  ; Emoji                # E0.6  [10] (🆑..🆚)    CL button..VS button",
text! "1F1E6..1F1FF  ; Emoji                # E0.0  [26] (🇦..🇿)    regional indicator symbol letter a..regional indicator symbol letter z",
text! "1F201..1F202  ; Emoji                # E0.6   [2] (🈁..🈂️)    Japanese “here” button..Japanese “service charge” button",
text! "1F21A         ; Emoji                # E0.6   [1] (🈚)       Japanese “free of charge” button",
text! "1F22F         ; Emoji                # E0.6   [1] (🈯)       Japanese “reserved” button",
text! "1F232..1F23A  ; Emoji                # E0.6   [9] (🈲..🈺)    Japanese “prohibited” button..Japanese “open for business” button",
text! "1F250..1F251  ; Emoji                # E0.6   [2] (🉐..🉑)    Japanese “bargain” button..Japanese “acceptable” button",
text! "1F300..1F30C  ; Emoji                # E0.6  [13] (🌀..🌌)    cyclone..milky way",
text! "1F30D..1F30E  ; Emoji                # E0.7   [2] (🌍..🌎)    globe showing Europe-Africa..globe showing Americas",
text! "1F30F         ; Emoji                # E0.6   [1] (🌏)       globe showing Asia-Australia",
text! "1F310         ; Emoji                # E1.0   [1] (🌐)       globe with meridians",
text! "1F311         ; Emoji                # E0.6   [1] (🌑)       new moon",
text! "1F312         ; Emoji                # E1.0   [1] (🌒)       waxing crescent moon",
text! "1F313..1F315  ; Emoji                # E0.6   [3] (🌓..🌕)    first quarter moon..full moon",
text! "1F316..1F318  ; Emoji                # E1.0   [3] (🌖..🌘)    waning gibbous moon..waning crescent moon",
text! "1F319         ; Emoji                # E0.6   [1] (🌙)       crescent moon",
text! "1F31A         ; Emoji                # E1.0   [1] (🌚)       new moon face",
text! "1F31B         ; Emoji                # E0.6   [1] (🌛)       first quarter moon face",
text! "1F31C         ; Emoji                # E0.7   [1] (🌜)       last quarter moon face",
text! "1F31D..1F31E  ; Emoji                # E1.0   [2] (🌝..🌞)    full moon face..sun with face",
text! "1F31F..1F320  ; Emoji                # E0.6   [2] (🌟..🌠)    glowing star..shooting star",
text! "1F321         ; Emoji                # E0.7   [1] (🌡️)       thermometer",
text! "1F324..1F32C  ; Emoji                # E0.7   [9] (🌤️..🌬️)    sun behind small cloud..wind face",
text! "1F32D..1F32F  ; Emoji                # E1.0   [3] (🌭..🌯)    hot dog..burrito",
text! "1F330..1F331  ; Emoji                # E0.6   [2] (🌰..🌱)    chestnut..seedling",
text! "1F332..1F333  ; Emoji                # E1.0   [2] (🌲..🌳)    evergreen tree..deciduous tree",
text! "1F334..1F335  ; Emoji                # E0.6   [2] (🌴..🌵)    palm tree..cactus",
text! "1F336         ; Emoji                # E0.7   [1] (🌶️)       hot pepper",
text! "1F337..1F34A  ; Emoji                # E0.6  [20] (🌷..🍊)    tulip..tangerine",
text! "1F34B         ; Emoji                # E1.0   [1] (🍋)       lemon",
text! "1F34C..1F34F  ; Emoji                # E0.6   [4] (🍌..🍏)    banana..green apple",
text! "1F350         ; Emoji                # E1.0   [1] (🍐)       pear",
text! "1F351..1F37B  ; Emoji                # E0.6  [43] (🍑..🍻)    peach..clinking beer mugs",
text! "1F37C         ; Emoji                # E1.0   [1] (🍼)       baby bottle",
text! "1F37D         ; Emoji                # E0.7   [1] (🍽️)       fork and knife with plate",
text! "1F37E..1F37F  ; Emoji                # E1.0   [2] (🍾..🍿)    bottle with popping cork..popcorn",
text! "1F380..1F393  ; Emoji                # E0.6  [20] (🎀..🎓)    ribbon..graduation cap",
text! "1F396..1F397  ; Emoji                # E0.7   [2] (🎖️..🎗️)    military medal..reminder ribbon",
text! "1F399..1F39B  ; Emoji                # E0.7   [3] (🎙️..🎛️)    studio microphone..control knobs",
text! "1F39E..1F39F  ; Emoji                # E0.7   [2] (🎞️..🎟️)    film frames..admission tickets",
text! "1F3A0..1F3C4  ; Emoji                # E0.6  [37] (🎠..🏄)    carousel horse..person surfing",
text! "1F3C5         ; Emoji                # E1.0   [1] (🏅)       sports medal",
text! "1F3C6         ; Emoji                # E0.6   [1] (🏆)       trophy",
text! "1F3C7         ; Emoji                # E1.0   [1] (🏇)       horse racing",
text! "1F3C8         ; Emoji                # E0.6   [1] (🏈)       american football",
text! "1F3C9         ; Emoji                # E1.0   [1] (🏉)       rugby football",
text! "1F3CA         ; Emoji                # E0.6   [1] (🏊)       person swimming",
text! "1F3CB..1F3CE  ; Emoji                # E0.7   [4] (🏋️..🏎️)    person lifting weights..racing car",
text! "1F3CF..1F3D3  ; Emoji                # E1.0   [5] (🏏..🏓)    cricket game..ping pong",
text! "1F3D4..1F3DF  ; Emoji                # E0.7  [12] (🏔️..🏟️)    snow-capped mountain..stadium"]

/-- lines 193-256 -/
def emojiData3 : List Nat := [
text! "1F3E0..1F3E3  ; Emoji                # E0.6   [4] (🏠..🏣)    house..Japanese post office",
text! "1F3E4         ; Emoji                # E1.0   [1] (🏤)       post office",
text! "1F3E5..1F3F0  ; Emoji                # E0.6  [12] (🏥..🏰)    hospital..castle",
text! "1F3F3         ; Emoji                # E0.7   [1] (🏳️)       white flag",
text! "1F3F4         ; Emoji                # E1.0   [1] (🏴)       black flag",
text! "1F3F5         ; Emoji                # E0.7   [1] (🏵️)       rosette",
text! "1F3F7         ; Emoji                # E0.7   [1] (🏷️)       label",
text! "1F3F8..1F407  ; Emoji                # E1.0  [16] (🏸..🐇)    badminton..rabbit",
text! "1F408         ; Emoji                # E0.7   [1] (🐈)       cat",
text! "1F409..1F40B  ; Emoji                # E1.0   [3] (🐉..🐋)    dragon..whale",
text! "1F40C..1F40E  ; Emoji                # E0.6   [3] (🐌..🐎)    snail..horse",
text! "1F40F..1F410  ; Emoji                # E1.0   [2] (🐏..🐐)    ram..goat",
text! "1F411..1F412  ; Emoji                # E0.6   [2] (🐑..🐒)    ewe..monkey",
text! "1F413         ; Emoji                # E1.0   [1] (🐓)       rooster",
text! "1F414         ; Emoji                # E0.6   [1] (🐔)       chicken",
text! "1F415         ; Emoji                # E0.7   [1] (🐕)       dog",
text! "1F416         ; Emoji                # E1.0   [1] (🐖)       pig",
text! "1F417..1F429  ; Emoji                # E0.6  [19] (🐗..🐩)    boar..poodle",
text! "1F42A         ; Emoji                # E1.0   [1] (🐪)       camel",
text! "1F42B..1F43E  ; Emoji                # E0.6  [20] (🐫..🐾)    two-hump camel..paw prints",
text! "1F43F         ; Emoji                # E0.7   [1] (🐿️)       chipmunk",
text! "1F440         ; Emoji                # E0.6   [1] (👀)       eyes",
text! "1F441         ; Emoji                # E0.7   [1] (👁️)       eye",
text! "1F442..1F464  ; Emoji                # E0.6  [35] (👂..👤)    ear..bust in silhouette",
text! "1F465         ; Emoji                # E1.0   [1] (👥)       busts in silhouette",
text! "1F466..1F46B  ; Emoji                # E0.6   [6] (👦..👫)    boy..woman and man holding hands",
text! "1F46C..1F46D  ; Emoji                # E1.0   [2] (👬..👭)    men holding hands..women holding hands",
text! "1F46E..1F4AC  ; Emoji                # E0.6  [63] (👮..💬)    police officer..speech balloon",
text! "1F4AD         ; Emoji                # E1.0   [1] (💭)       thought balloon",
text! "1F4AE..1F4B5  ; Emoji                # E0.6   [8] (💮..💵)    white flower..dollar banknote",
text! "1F4B6..1F4B7  ; Emoji                # E1.0   [2] (💶..💷)    euro banknote..pound banknote",
text! "1F4B8..1F4EB  ; Emoji                # E0.6  [52] (💸..📫)    money with wings..closed mailbox with raised flag",
text! "1F4EC..1F4ED  ; Emoji                # E0.7   [2] (📬..📭)    open mailbox with raised flag..open mailbox with lowered flag",
text! "1F4EE         ; Emoji                # E0.6   [1] (📮)       postbox",
text! "1F4EF         ; Emoji                # E1.0   [1] (📯)       postal horn",
text! "1F4F0..1F4F4  ; Emoji                # E0.6   [5] (📰..📴)    newspaper..mobile phone off",
text! "1F4F5         ; Emoji                # E1.0   [1] (📵)       no mobile phones",
text! "1F4F6..1F4F7  ; Emoji                # E0.6   [2] (📶..📷)    antenna bars..camera",
text! "1F4F8         ; Emoji                # E1.0   [1] (📸)       camera with flash",
text! "1F4F9..1F4FC  ; Emoji                # E0.6   [4] (📹..📼)    video camera..videocassette",
text! "1F4FD         ; Emoji                # E0.7   [1] (📽️)       film projector",
text! "1F4FF..1F502  ; Emoji                # E1.0   [4] (📿..🔂)    prayer beads..repeat single button",
text! "1F503         ; Emoji                # E0.6   [1] (🔃)       clockwise vertical arrows",
text! "1F504..1F507  ; Emoji                # E1.0   [4] (🔄..🔇)    counterclockwise arrows button..muted speaker",
text! "1F508         ; Emoji                # E0.7   [1] (🔈)       speaker low volume",
text! "1F509         ; Emoji                # E1.0   [1] (🔉)       speaker medium volume",
text! "1F50A..1F514  ; Emoji                # E0.6  [11] (🔊..🔔)    speaker high volume..bell",
text! "1F515         ; Emoji                # E1.0   [1] (🔕)       bell with slash",
text! "1F516..1F52B  ; Emoji                # E0.6  [22] (🔖..🔫)    bookmark..water pistol",
text! "1F52C..1F52D  ; Emoji                # E1.0   [2] (🔬..🔭)    microscope..telescope",
text! "1F52E..1F53D  ; Emoji                # E0.6  [16] (🔮..🔽)    crystal ball..downwards button",
text! "1F549..1F54A  ; Emoji                # E0.7   [2] (🕉️..🕊️)    om..dove",
text! "1F54B..1F54E  ; Emoji                # E1.0   [4] (🕋..🕎)    kaaba..menorah",
text! "1F550..1F55B  ; Emoji                # E0.6  [12] (🕐..🕛)    one o’clock..twelve o’clock",
text! "1F55C..1F567  ; Emoji                # E0.7  [12] (🕜..🕧)    one-thirty..twelve-thirty",
text! "1F56F..1F570  ; Emoji                # E0.7   [2] (🕯️..🕰️)    candle..mantelpiece clock",
text! "1F573..1F579  ; Emoji                # E0.7   [7] (🕳️..🕹️)    hole..joystick",
text! "1F57A         ; Emoji                # E3.0   [1] (🕺)       man dancing",
text! "1F587         ; Emoji                # E0.7   [1] (🖇️)       linked paperclips",
text! "1F58A..1F58D  ; Emoji                # E0.7   [4] (🖊️..🖍️)    pen..crayon",
text! "1F590         ; Emoji                # E0.7   [1] (🖐️)       hand with fingers splayed",
text! "1F595..1F596  ; Emoji                # E1.0   [2] (🖕..🖖)    middle finger..vulcan salute",
text! "1F5A4         ; Emoji                # E3.0   [1] (🖤)       black heart",
text! "1F5A5         ; Emoji                # E0.7   [1] (🖥️)       desktop computer"]

/-- lines 257-320 -/
def emojiData4 : List Nat := [
text! "1F5A8         ; Emoji                # E0.7   [1] (🖨️)       printer",
text! "1F5B1..1F5B2  ; Emoji                # E0.7   [2] (🖱️..🖲️)    computer mouse..trackball",
text! "1F5BC         ; Emoji                # E0.7   [1] (🖼️)       framed picture",
text! "1F5C2..1F5C4  ; Emoji                # E0.7   [3] (🗂️..🗄️)    card index dividers..file cabinet",
text! "1F5D1..1F5D3  ; Emoji                # E0.7   [3] (🗑️..🗓️)    wastebasket..spiral calendar",
text! "1F5DC..1F5DE  ; Emoji                # E0.7   [3] (🗜️..🗞️)    clamp..rolled-up newspaper",
text! "1F5E1         ; Emoji                # E0.7   [1] (🗡️)       dagger",
text! "1F5E3         ; Emoji                # E0.7   [1] (🗣️)       speaking head",
text! "1F5E8         ; Emoji                # E2.0   [1] (🗨️)       left speech bubble",
text! "1F5EF         ; Emoji                # E0.7   [1] (🗯️)       right anger bubble",
text! "1F5F3         ; Emoji                # E0.7   [1] (🗳️)       ballot box with ballot",
text! "1F5FA         ; Emoji                # E0.7   [1] (🗺️)       world map",
text! "1F5FB..1F5FF  ; Emoji                # E0.6   [5] (🗻..🗿)    mount fuji..moai",
text! "1F600         ; Emoji                # E1.0   [1] (😀)       grinning face",
text! "1F601..1F606  ; Emoji                # E0.6   [6] (😁..😆)    beaming face with smiling eyes..grinning squinting face",
text! "1F607..1F608  ; Emoji                # E1.0   [2] (😇..😈)    smiling face with halo..smiling face with horns",
text! "1F609..1F60D  ; Emoji                # E0.6   [5] (😉..😍)    winking face..smiling face with heart-eyes",
text! "1F60E         ; Emoji                # E1.0   [1] (😎)       smiling face with sunglasses",
text! "1F60F         ; Emoji                # E0.6   [1] (😏)       smirking face",
text! "1F610         ; Emoji                # E0.7   [1] (😐)       neutral face",
text! "1F611         ; Emoji                # E1.0   [1] (😑)       expressionless face",
text! "1F612..1F614  ; Emoji                # E0.6   [3] (😒..😔)    unamused face..pensive face",
text! "1F615         ; Emoji                # E1.0   [1] (😕)       confused face",
text! "1F616         ; Emoji                # E0.6   [1] (😖)       confounded face",
text! "1F617         ; Emoji                # E1.0   [1] (😗)       kissing face",
text! "1F618         ; Emoji                # E0.6   [1] (😘)       face blowing a kiss",
text! "1F619         ; Emoji                # E1.0   [1] (😙)       kissing face with smiling eyes",
text! "1F61A         ; Emoji                # E0.6   [1] (😚)       kissing face with closed eyes",
text! "1F61B         ; Emoji                # E1.0   [1] (😛)       face with tongue",
text! "1F61C..1F61E  ; Emoji                # E0.6   [3] (😜..😞)    winking face with tongue..disappointed face",
text! "1F61F         ; Emoji                # E1.0   [1] (😟)       worried face",
text! "1F620..1F625  ; Emoji                # E0.6   [6] (😠..😥)    angry face..sad but relieved face",
text! "1F626..1F627  ; Emoji                # E1.0   [2] (😦..😧)    frowning face with open mouth..anguished face",
text! "1F628..1F62B  ; Emoji                # E0.6   [4] (😨..😫)    fearful face..tired face",
text! "1F62C         ; Emoji                # E1.0   [1] (😬)       grimacing face",
text! "1F62D         ; Emoji                # E0.6   [1] (😭)       loudly crying face",
text! "1F62E..1F62F  ; Emoji                # E1.0   [2] (😮..😯)    face with open mouth..hushed face",
text! "1F630..1F633  ; Emoji                # E0.6   [4] (😰..😳)    anxious face with sweat..flushed face",
text! "1F634         ; Emoji                # E1.0   [1] (😴)       sleeping face",
text! "1F635         ; Emoji                # E0.6   [1] (😵)       face with crossed-out eyes",
text! "1F636         ; Emoji                # E1.0   [1] (😶)       face without mouth",
text! "1F637..1F640  ; Emoji                # E0.6  [10] (😷..🙀)    face with medical mask..weary cat",
text! "1F641..1F644  ; Emoji                # E1.0   [4] (🙁..🙄)    slightly frowning face..face with rolling eyes",
text! "1F645..1F64F  ; Emoji                # E0.6  [11] (🙅..🙏)    person gesturing NO..folded hands",
text! "1F680         ; Emoji                # E0.6   [1] (🚀)       rocket",
text! "1F681..1F682  ; Emoji                # E1.0   [2] (🚁..🚂)    helicopter..locomotive",
text! "1F683..1F685  ; Emoji                # E0.6   [3] (🚃..🚅)    railway car..bullet train",
text! "1F686         ; Emoji                # E1.0   [1] (🚆)       train",
text! "1F687         ; Emoji                # E0.6   [1] (🚇)       metro",
text! "1F688         ; Emoji                # E1.0   [1] (🚈)       light rail",
text! "1F689         ; Emoji                # E0.6   [1] (🚉)       station",
text! "1F68A..1F68B  ; Emoji                # E1.0   [2] (🚊..🚋)    tram..tram car",
text! "1F68C         ; Emoji                # E0.6   [1] (🚌)       bus",
text! "1F68D         ; Emoji                # E0.7   [1] (🚍)       oncoming bus",
text! "1F68E         ; Emoji                # E1.0   [1] (🚎)       trolleybus",
text! "1F68F         ; Emoji                # E0.6   [1] (🚏)       bus stop",
text! "1F690         ; Emoji                # E1.0   [1] (🚐)       minibus",
text! "1F691..1F693  ; Emoji                # E0.6   [3] (🚑..🚓)    ambulance..police car",
text! "1F694         ; Emoji                # E0.7   [1] (🚔)       oncoming police car",
text! "1F695         ; Emoji                # E0.6   [1] (🚕)       taxi",
text! "1F696         ; Emoji                # E1.0   [1] (🚖)       oncoming taxi",
text! "1F697         ; Emoji                # E0.6   [1] (🚗)       automobile",
text! "1F698         ; Emoji                # E0.7   [1] (🚘)       oncoming automobile",
text! "1F699..1F69A  ; Emoji                # E0.6   [2] (🚙..🚚)    sport utility vehicle..delivery truck"]

/-- lines 321-384 -/
def emojiData5 : List Nat := [
text! "1F69B..1F6A1  ; Emoji                # E1.0   [7] (🚛..🚡)    articulated lorry..aerial tramway",
text! "1F6A2         ; Emoji                # E0.6   [1] (🚢)       ship",
text! "1F6A3         ; Emoji                # E1.0   [1] (🚣)       person rowing boat",
text! "1F6A4..1F6A5  ; Emoji                # E0.6   [2] (🚤..🚥)    speedboat..horizontal traffic light",
text! "1F6A6         ; Emoji                # E1.0   [1] (🚦)       vertical traffic light",
text! "1F6A7..1F6AD  ; Emoji                # E0.6   [7] (🚧..🚭)    construction..no smoking",
text! "1F6AE..1F6B1  ; Emoji                # E1.0   [4] (🚮..🚱)    litter in bin sign..non-potable water",
text! "1F6B2         ; Emoji                # E0.6   [1] (🚲)       bicycle",
text! "1F6B3..1F6B5  ; Emoji                # E1.0   [3] (🚳..🚵)    no bicycles..person mountain biking",
text! "1F6B6         ; Emoji                # E0.6   [1] (🚶)       person walking",
text! "1F6B7..1F6B8  ; Emoji                # E1.0   [2] (🚷..🚸)    no pedestrians..children crossing",
text! "1F6B9..1F6BE  ; Emoji                # E0.6   [6] (🚹..🚾)    men’s room..water closet",
text! "1F6BF         ; Emoji                # E1.0   [1] (🚿)       shower",
text! "1F6C0         ; Emoji                # E0.6   [1] (🛀)       person taking bath",
text! "1F6C1..1F6C5  ; Emoji                # E1.0   [5] (🛁..🛅)    bathtub..left luggage",
text! "1F6CB         ; Emoji                # E0.7   [1] (🛋️)       couch and lamp",
text! "1F6CC         ; Emoji                # E1.0   [1] (🛌)       person in bed",
text! "1F6CD..1F6CF  ; Emoji                # E0.7   [3] (🛍️..🛏️)    shopping bags..bed",
text! "1F6D0         ; Emoji                # E1.0   [1] (🛐)       place of worship",
text! "1F6D1..1F6D2  ; Emoji                # E3.0   [2] (🛑..🛒)    stop sign..shopping cart",
text! "1F6D5         ; Emoji                # E12.0  [1] (🛕)       hindu temple",
text! "1F6D6..1F6D7  ; Emoji                # E13.0  [2] (🛖..🛗)    hut..elevator",
text! "1F6D8         ; Emoji                # E17.0  [1] (🛘)       landslide",
text! "1F6DC         ; Emoji                # E15.0  [1] (🛜)       wireless",
text! "1F6DD..1F6DF  ; Emoji                # E14.0  [3] (🛝..🛟)    playground slide..ring buoy",
text! "1F6E0..1F6E5  ; Emoji                # E0.7   [6] (🛠️..🛥️)    hammer and wrench..motor boat",
text! "1F6E9         ; Emoji                # E0.7   [1] (🛩️)       small airplane",
text! "1F6EB..1F6EC  ; Emoji                # E1.0   [2] (🛫..🛬)    airplane departure..airplane arrival",
text! "1F6F0         ; Emoji                # E0.7   [1] (🛰️)       satellite",
text! "1F6F3         ; Emoji                # E0.7   [1] (🛳️)       passenger ship",
text! "1F6F4..1F6F6  ; Emoji                # E3.0   [3] (🛴..🛶)    kick scooter..canoe",
text! "1F6F7..1F6F8  ; Emoji                # E5.0   [2] (🛷..🛸)    sled..flying saucer",
text! "1F6F9         ; Emoji                # E11.0  [1] (🛹)       skateboard",
text! "1F6FA         ; Emoji                # E12.0  [1] (🛺)       auto rickshaw",
text! "1F6FB..1F6FC  ; Emoji                # E13.0  [2] (🛻..🛼)    pickup truck..roller skate",
text! "1F7E0..1F7EB  ; Emoji                # E12.0 [12] (🟠..🟫)    orange circle..brown square",
text! "1F7F0         ; Emoji                # E14.0  [1] (🟰)       heavy equals sign",
text! "1F90C         ; Emoji                # E13.0  [1] (🤌)       pinched fingers",
text! "1F90D..1F90F  ; Emoji                # E12.0  [3] (🤍..🤏)    white heart..pinching hand",
text! "1F910..1F918  ; Emoji                # E1.0   [9] (🤐..🤘)    zipper-mouth face..sign of the horns",
text! "1F919..1F91E  ; Emoji                # E3.0   [6] (🤙..🤞)    call me hand..crossed fingers",
text! "1F91F         ; Emoji                # E5.0   [1] (🤟)       love-you gesture",
text! "1F920..1F927  ; Emoji                # E3.0   [8] (🤠..🤧)    cowboy hat face..sneezing face",
text! "1F928..1F92F  ; Emoji                # E5.0   [8] (🤨..🤯)    face with raised eyebrow..exploding head",
text! "1F930         ; Emoji                # E3.0   [1] (🤰)       pregnant woman",
text! "1F931..1F932  ; Emoji                # E5.0   [2] (🤱..🤲)    breast-feeding..palms up together",
text! "1F933..1F93A  ; Emoji                # E3.0   [8] (🤳..🤺)    selfie..person fencing",
text! "1F93C..1F93E  ; Emoji                # E3.0   [3] (🤼..🤾)    people wrestling..person playing handball",
text! "1F93F         ; Emoji                # E12.0  [1] (🤿)       diving mask",
text! "1F940..1F945  ; Emoji                # E3.0   [6] (🥀..🥅)    wilted flower..goal net",
text! "1F947..1F94B  ; Emoji                # E3.0   [5] (🥇..🥋)    1st place medal..martial arts uniform",
text! "1F94C         ; Emoji                # E5.0   [1] (🥌)       curling stone",
text! "1F94D..1F94F  ; Emoji                # E11.0  [3] (🥍..🥏)    lacrosse..flying disc",
text! "1F950..1F95E  ; Emoji                # E3.0  [15] (🥐..🥞)    croissant..pancakes",
text! "1F95F..1F96B  ; Emoji                # E5.0  [13] (🥟..🥫)    dumpling..canned food",
text! "1F96C..1F970  ; Emoji                # E11.0  [5] (🥬..🥰)    leafy green..smiling face with hearts",
text! "1F971         ; Emoji                # E12.0  [1] (🥱)       yawning face",
text! "1F972         ; Emoji                # E13.0  [1] (🥲)       smiling face with tear",
text! "1F973..1F976  ; Emoji                # E11.0  [4] (🥳..🥶)    partying face..cold face",
text! "1F977..1F978  ; Emoji                # E13.0  [2] (🥷..🥸)    ninja..disguised face",
text! "1F979         ; Emoji                # E14.0  [1] (🥹)       face holding back tears",
text! "1F97A         ; Emoji                # E11.0  [1] (🥺)       pleading face",
text! "1F97B         ; Emoji                # E12.0  [1] (🥻)       sari",
text! "1F97C..1F97F  ; Emoji                # E11.0  [4] (🥼..🥿)    lab coat..flat shoe"]

/-- lines 385-448 -/
def emojiData6 : List Nat := [
text! "1F980..1F984  ; Emoji                # E1.0   [5] (🦀..🦄)    crab..unicorn",
text! "1F985..1F991  ; Emoji                # E3.0  [13] (🦅..🦑)    eagle..squid",
text! "1F992..1F997  ; Emoji                # E5.0   [6] (🦒..🦗)    giraffe..cricket",
text! "1F998..1F9A2  ; Emoji                # E11.0 [11] (🦘..🦢)    kangaroo..swan",
text! "1F9A3..1F9A4  ; Emoji                # E13.0  [2] (🦣..🦤)    mammoth..dodo",
text! "1F9A5..1F9AA  ; Emoji                # E12.0  [6] (🦥..🦪)    sloth..oyster",
text! "1F9AB..1F9AD  ; Emoji                # E13.0  [3] (🦫..🦭)    beaver..seal",
text! "1F9AE..1F9AF  ; Emoji                # E12.0  [2] (🦮..🦯)    guide dog..white cane",
text! "1F9B0..1F9B9  ; Emoji                # E11.0 [10] (🦰..🦹)    red hair..supervillain",
text! "1F9BA..1F9BF  ; Emoji                # E12.0  [6] (🦺..🦿)    safety vest..mechanical leg",
text! "1F9C0         ; Emoji                # E1.0   [1] (🧀)       cheese wedge",
text! "1F9C1..1F9C2  ; Emoji                # E11.0  [2] (🧁..🧂)    cupcake..salt",
text! "1F9C3..1F9CA  ; Emoji                # E12.0  [8] (🧃..🧊)    beverage box..ice",
text! "1F9CB         ; Emoji                # E13.0  [1] (🧋)       bubble tea",
text! "1F9CC         ; Emoji                # E14.0  [1] (🧌)       troll",
text! "1F9CD..1F9CF  ; Emoji                # E12.0  [3] (🧍..🧏)    person standing..deaf person",
text! "1F9D0..1F9E6  ; Emoji                # E5.0  [23] (🧐..🧦)    face with monocle..socks",
text! "1F9E7..1F9FF  ; Emoji                # E11.0 [25] (🧧..🧿)    red envelope..nazar amulet",
text! "1FA70..1FA73  ; Emoji                # E12.0  [4] (🩰..🩳)    ballet shoes..shorts",
text! "1FA74         ; Emoji                # E13.0  [1] (🩴)       thong sandal",
text! "1FA75..1FA77  ; Emoji                # E15.0  [3] (🩵..🩷)    light blue heart..pink heart",
text! "1FA78..1FA7A  ; Emoji                # E12.0  [3] (🩸..🩺)    drop of blood..stethoscope",
text! "1FA7B..1FA7C  ; Emoji                # E14.0  [2] (🩻..🩼)    x-ray..crutch",
text! "1FA80..1FA82  ; Emoji                # E12.0  [3] (🪀..🪂)    yo-yo..parachute",
text! "1FA83..1FA86  ; Emoji                # E13.0  [4] (🪃..🪆)    boomerang..nesting dolls",
text! "1FA87..1FA88  ; Emoji                # E15.0  [2] (🪇..🪈)    maracas..flute",
text! "1FA89         ; Emoji                # E16.0  [1] (🪉)       harp",
text! "1FA8A         ; Emoji                # E17.0  [1] (🪊)       trombone",
text! "1FA8E         ; Emoji                # E17.0  [1] (🪎)       treasure chest",
text! "1FA8F         ; Emoji                # E16.0  [1] (🪏)       shovel",
text! "1FA90..1FA95  ; Emoji                # E12.0  [6] (🪐..🪕)    ringed planet..banjo",
text! "1FA96..1FAA8  ; Emoji                # E13.0 [19] (🪖..🪨)    military helmet..rock",
text! "1FAA9..1FAAC  ; Emoji                # E14.0  [4] (🪩..🪬)    mirror ball..hamsa",
text! "1FAAD..1FAAF  ; Emoji                # E15.0  [3] (🪭..🪯)    folding hand fan..khanda",
text! "1FAB0..1FAB6  ; Emoji                # E13.0  [7] (🪰..🪶)    fly..feather",
text! "1FAB7..1FABA  ; Emoji                # E14.0  [4] (🪷..🪺)    lotus..nest with eggs",
text! "1FABB..1FABD  ; Emoji                # E15.0  [3] (🪻..🪽)    hyacinth..wing",
text! "1FABE         ; Emoji                # E16.0  [1] (🪾)       leafless tree",
text! "1FABF         ; Emoji                # E15.0  [1] (🪿)       goose",
text! "1FAC0..1FAC2  ; Emoji                # E13.0  [3] (🫀..🫂)    anatomical heart..people hugging",
text! "1FAC3..1FAC5  ; Emoji                # E14.0  [3] (🫃..🫅)    pregnant man..person with crown",
text! "1FAC6         ; Emoji                # E16.0  [1] (🫆)       fingerprint",
text! "1FAC8         ; Emoji                # E17.0  [1] (🫈)       hairy creature",
text! "1FACD         ; Emoji                # E17.0  [1] (🫍)       orca",
text! "1FACE..1FACF  ; Emoji                # E15.0  [2] (🫎..🫏)    moose..donkey",
text! "1FAD0..1FAD6  ; Emoji                # E13.0  [7] (🫐..🫖)    blueberries..teapot",
text! "1FAD7..1FAD9  ; Emoji                # E14.0  [3] (🫗..🫙)    pouring liquid..jar",
text! "1FADA..1FADB  ; Emoji                # E15.0  [2] (🫚..🫛)    ginger root..pea pod",
text! "1FADC         ; Emoji                # E16.0  [1] (🫜)       root vegetable",
text! "1FADF         ; Emoji                # E16.0  [1] (🫟)       splatter",
text! "1FAE0..1FAE7  ; Emoji                # E14.0  [8] (🫠..🫧)    melting face..bubbles",
text! "1FAE8         ; Emoji                # E15.0  [1] (🫨)       shaking face",
text! "1FAE9         ; Emoji                # E16.0  [1] (🫩)       face with bags under eyes",
text! "1FAEA         ; Emoji                # E17.0  [1] (🫪)       distorted face",
text! "1FAEF         ; Emoji                # E17.0  [1] (🫯)       fight cloud",
text! "1FAF0..1FAF6  ; Emoji                # E14.0  [7] (🫰..🫶)    hand with index finger and thumb crossed..heart hands",
text! "1FAF7..1FAF8  ; Emoji                # E15.0  [2] (🫷..🫸)    leftwards pushing hand..rightwards pushing hand",
text! "",
text! "# Total elements: 1438",
text! "",
text! "# ================================================",
text! "",
text! "# All omitted code points have Emoji_Presentation=No",
text! ""]

/-- lines 449-512 -/
def emojiData7 : List Nat := [
text! "231A..231B    ; Emoji_Presentation   # E0.6   [2] (⌚..⌛)    watch..hourglass done",
text! "23E9..23EC    ; Emoji_Presentation   # E0.6   [4] (⏩..⏬)    fast-forward button..fast down button",
text! "23F0          ; Emoji_Presentation   # E0.6   [1] (⏰)       alarm clock",
text! "23F3          ; Emoji_Presentation   # E0.6   [1] (⏳)       hourglass not done",
text! "25FD..25FE    ; Emoji_Presentation   # E0.6   [2] (◽..◾)    white medium-small square..black medium-small square",
text! "2614..2615    ; Emoji_Presentation   # E0.6   [2] (☔..☕)    umbrella with rain drops..hot beverage",
text! "2648..2653    ; Emoji_Presentation   # E0.6  [12] (♈..♓)    Aries..Pisces",
text! "267F          ; Emoji_Presentation   # E0.6   [1] (♿)       wheelchair symbol",
text! "2693          ; Emoji_Presentation   # E0.6   [1] (⚓)       anchor",
text! "26A1          ; Emoji_Presentation   # E0.6   [1] (⚡)       high voltage",
text! "26AA..26AB    ; Emoji_Presentation   # E0.6   [2] (⚪..⚫)    white circle..black circle",
text! "26BD..26BE    ; Emoji_Presentation   # E0.6   [2] (⚽..⚾)    soccer ball..baseball",
text! "26C4..26C5    ; Emoji_Presentation   # E0.6   [2] (⛄..⛅)    snowman without snow..sun behind cloud",
text! "26CE          ; Emoji_Presentation   # E0.6   [1] (⛎)       Ophiuchus",
text! "26D4          ; Emoji_Presentation   # E0.6   [1] (⛔)       no entry",
text! "26EA          ; Emoji_Presentation   # E0.6   [1] (⛪)       church",
text! "26F2..26F3    ; Emoji_Presentation   # E0.6   [2] (⛲..⛳)    fountain..flag in hole",
text! "26F5          ; Emoji_Presentation   # E0.6   [1] (⛵)       sailboat",
text! "26FA          ; Emoji_Presentation   # E0.6   [1] (⛺)       tent",
text! "26FD          ; Emoji_Presentation   # E0.6   [1] (⛽)       fuel pump",
text! "2705          ; Emoji_Presentation   # E0.6   [1] (✅)       check mark button",
text! "270A..270B    ; Emoji_Presentation   # E0.6   [2] (✊..✋)    raised fist..raised hand",
text! "2728          ; Emoji_Presentation   # E0.6   [1] (✨)       sparkles",
text! "274C          ; Emoji_Presentation   # E0.6   [1] (❌)       cross mark",
text! "274E          ; Emoji_Presentation   # E0.6   [1] (❎)       cross mark button",
text! "2753..2755    ; Emoji_Presentation   # E0.6   [3] (❓..❕)    red question mark..white exclamation mark",
text! "2757          ; Emoji_Presentation   # E0.6   [1] (❗)       red exclamation mark",
text! "2795..2797    ; Emoji_Presentation   # E0.6   [3] (➕..➗)    plus..divide",
text! "27B0          ; Emoji_Presentation   # E0.6   [1] (➰)       curly loop",
text! "27BF          ; Emoji_Presentation   # E1.0   [1] (➿)       double curly loop",
text! "2B1B..2B1C    ; Emoji_Presentation   # E0.6   [2] (⬛..⬜)    black large square..white large square",
text! "2B50          ; Emoji_Presentation   # E0.6   [1] (⭐)       star",
text! "2B55          ; Emoji_Presentation   # E0.6   [1] (⭕)       hollow red circle",
text! "1F004         ; Emoji_Presentation   # E0.6   [1] (🀄)       mahjong red dragon",
text! "1F0CF         ; Emoji_Presentation   # E0.6   [1] (🃏)       joker",
text! "1F18E         ; Emoji_Presentation   # E0.6   [1] (🆎)       AB button (blood type)",
text! "1F191..1F19A  ; Emoji_Presentation   # E0.6  [10] (🆑..🆚)    CL button..VS button",
text! "1F1E6..1F1FF  ; Emoji_Presentation   # E0.0  [26] (🇦..🇿)    regional indicator symbol letter a..regional indicator symbol letter z",
text! "1F201         ; Emoji_Presentation   # E0.6   [1] (🈁)       Japanese “here” button",
text! "1F21A         ; Emoji_Presentation   # E0.6   [1] (🈚)       Japanese “free of charge” button",
text! "1F22F         ; Emoji_Presentation   # E0.6   [1] (🈯)       Japanese “reserved” button",
text! "1F232..1F236  ; Emoji_Presentation   # E0.6   [5] (🈲..🈶)    Japanese “prohibited” button..Japanese “not free of charge” button",
text! "1F238..1F23A  ; Emoji_Presentation   # E0.6   [3] (🈸..🈺)    Japanese “application” button..Japanese “open for business” button",
text! "1F250..1F251  ; Emoji_Presentation   # E0.6   [2] (🉐..🉑)    Japanese “bargain” button..Japanese “acceptable” button",
text! "1F300..1F30C  ; Emoji_Presentation   # E0.6  [13] (🌀..🌌)    cyclone..milky way",
text! "1F30D..1F30E  ; Emoji_Presentation   # E0.7   [2] (🌍..🌎)    globe showing Europe-Africa..globe showing Americas",
text! "1F30F         ; Emoji_Presentation   # E0.6   [1] (🌏)       globe showing Asia-Australia",
text! "1F310         ; Emoji_Presentation   # E1.0   [1] (🌐)       globe with meridians",
text! "1F311         ; Emoji_Presentation   # E0.6   [1] (🌑)       new moon",
text! "1F312         ; Emoji_Presentation   # E1.0   [1] (🌒)       waxing crescent moon",
text! "1F313..1F315  ; Emoji_Presentation   # E0.6   [3] (🌓..🌕)    first quarter moon..full moon",
text! "1F316..1F318  ; Emoji_Presentation   # E1.0   [3] (🌖..🌘)    waning gibbous moon..waning crescent moon",
text! "1F319         ; Emoji_Presentation   # E0.6   [1] (🌙)       crescent moon",
text! "1F31A         ; Emoji_Presentation   # E1.0   [1] (🌚)       new moon face",
text! "1F31B         ; Emoji_Presentation   # E0.6   [1] (🌛)       first quarter moon face",
text! "1F31C         ; Emoji_Presentation   # E0.7   [1] (🌜)       last quarter moon face",
text! "1F31D..1F31E  ; Emoji_Presentation   # E1.0   [2] (🌝..🌞)    full moon face..sun with face",
text! "1F31F..1F320  ; Emoji_Presentation   # E0.6   [2] (🌟..🌠)    glowing star..shooting star",
text! "1F32D..1F32F  ; Emoji_Presentation   # E1.0   [3] (🌭..🌯)    hot dog..burrito",
text! "1F330..1F331  ; Emoji_Presentation   # E0.6   [2] (🌰..🌱)    chestnut..seedling",
text! "1F332..1F333  ; Emoji_Presentation   # E1.0   [2] (🌲..🌳)    evergreen tree..deciduous tree",
text! "1F334..1F335  ; Emoji_Presentation   # E0.6   [2] (🌴..🌵)    palm tree..cactus",
text! "1F337..1F34A  ; Emoji_Presentation   # E0.6  [20] (🌷..🍊)    tulip..tangerine",
text! "1F34B         ; Emoji_Presentation   # E1.0   [1] (🍋)       lemon"]

/-- lines 513-576 -/
def emojiData8 : List Nat := [
text! "1F34C..1F34F  ; Emoji_Presentation   # E0.6   [4] (🍌..🍏)    banana..green apple",
text! "1F350         ; Emoji_Presentation   # E1.0   [1] (🍐)       pear",
text! "1F351..1F37B  ; Emoji_Presentation   # E0.6  [43] (🍑..🍻)    peach..clinking beer mugs",
text! "1F37C         ; Emoji_Presentation   # E1.0   [1] (🍼)       baby bottle",
text! "1F37E..1F37F  ; Emoji_Presentation   # E1.0   [2] (🍾..🍿)    bottle with popping cork..popcorn",
text! "1F380..1F393  ; Emoji_Presentation   # E0.6  [20] (🎀..🎓)    ribbon..graduation cap",
text! "1F3A0..1F3C4  ; Emoji_Presentation   # E0.6  [37] (🎠..🏄)    carousel horse..person surfing",
text! "1F3C5         ; Emoji_Presentation   # E1.0   [1] (🏅)       sports medal",
text! "1F3C6         ; Emoji_Presentation   # E0.6   [1] (🏆)       trophy",
text! "1F3C7         ; Emoji_Presentation   # E1.0   [1] (🏇)       horse racing",
text! "1F3C8         ; Emoji_Presentation   # E0.6   [1] (🏈)       american football",
text! "1F3C9         ; Emoji_Presentation   # E1.0   [1] (🏉)       rugby football",
text! "1F3CA         ; Emoji_Presentation   # E0.6   [1] (🏊)       person swimming",
text! "1F3CF..1F3D3  ; Emoji_Presentation   # E1.0   [5] (🏏..🏓)    cricket game..ping pong",
text! "1F3E0..1F3E3  ; Emoji_Presentation   # E0.6   [4] (🏠..🏣)    house..Japanese post office",
text! "1F3E4         ; Emoji_Presentation   # E1.0   [1] (🏤)       post office",
text! "1F3E5..1F3F0  ; Emoji_Presentation   # E0.6  [12] (🏥..🏰)    hospital..castle",
text! "1F3F4         ; Emoji_Presentation   # E1.0   [1] (🏴)       black flag",
text! "1F3F8..1F407  ; Emoji_Presentation   # E1.0  [16] (🏸..🐇)    badminton..rabbit",
text! "1F408         ; Emoji_Presentation   # E0.7   [1] (🐈)       cat",
text! "1F409..1F40B  ; Emoji_Presentation   # E1.0   [3] (🐉..🐋)    dragon..whale",
text! "1F40C..1F40E  ; Emoji_Presentation   # E0.6   [3] (🐌..🐎)    snail..horse",
text! "1F40F..1F410  ; Emoji_Presentation   # E1.0   [2] (🐏..🐐)    ram..goat",
text! "1F411..1F412  ; Emoji_Presentation   # E0.6   [2] (🐑..🐒)    ewe..monkey",
text! "1F413         ; Emoji_Presentation   # E1.0   [1] (🐓)       rooster",
text! "1F414         ; Emoji_Presentation   # E0.6   [1] (🐔)       chicken",
text! "1F415         ; Emoji_Presentation   # E0.7   [1] (🐕)       dog",
text! "1F416         ; Emoji_Presentation   # E1.0   [1] (🐖)       pig",
text! "1F417..1F429  ; Emoji_Presentation   # E0.6  [19] (🐗..🐩)    boar..poodle",
text! "1F42A         ; Emoji_Presentation   # E1.0   [1] (🐪)       camel",
text! "1F42B..1F43E  ; Emoji_Presentation   # E0.6  [20] (🐫..🐾)    two-hump camel..paw prints",
text! "1F440         ; Emoji_Presentation   # E0.6   [1] (👀)       eyes",
text! "1F442..1F464  ; Emoji_Presentation   # E0.6  [35] (👂..👤)    ear..bust in silhouette",
text! "1F465         ; Emoji_Presentation   # E1.0   [1] (👥)       busts in silhouette",
text! "1F466..1F46B  ; Emoji_Presentation   # E0.6   [6] (👦..👫)    boy..woman and man holding hands",
text! "1F46C..1F46D  ; Emoji_Presentation   # E1.0   [2] (👬..👭)    men holding hands..women holding hands",
text! "1F46E..1F4AC  ; Emoji_Presentation   # E0.6  [63] (👮..💬)    police officer..speech balloon",
text! "1F4AD         ; Emoji_Presentation   # E1.0   [1] (💭)       thought balloon",
text! "1F4AE..1F4B5  ; Emoji_Presentation   # E0.6   [8] (💮..💵)    white flower..dollar banknote",
text! "1F4B6..1F4B7  ; Emoji_Presentation   # E1.0   [2] (💶..💷)    euro banknote..pound banknote",
text! "1F4B8..1F4EB  ; Emoji_Presentation   # E0.6  [52] (💸..📫)    money with wings..closed mailbox with raised flag",
text! "1F4EC..1F4ED  ; Emoji_Presentation   # E0.7   [2] (📬..📭)    open mailbox with raised flag..open mailbox with lowered flag",
text! "1F4EE         ; Emoji_Presentation   # E0.6   [1] (📮)       postbox",
text! "1F4EF         ; Emoji_Presentation   # E1.0   [1] (📯)       postal horn",
text! "1F4F0..1F4F4  ; Emoji_Presentation   # E0.6   [5] (📰..📴)    newspaper..mobile phone off",
text! "1F4F5         ; Emoji_Presentation   # E1.0   [1] (📵)       no mobile phones",
text! "1F4F6..1F4F7  ; Emoji_Presentation   # E0.6   [2] (📶..📷)    antenna bars..camera",
text! "1F4F8         ; Emoji_Presentation   # E1.0   [1] (📸)       camera with flash",
text! "1F4F9..1F4FC  ; Emoji_Presentation   # E0.6   [4] (📹..📼)    video camera..videocassette",
text! "1F4FF..1F502  ; Emoji_Presentation   # E1.0   [4] (📿..🔂)    prayer beads..repeat single button",
text! "1F503         ; Emoji_Presentation   # E0.6   [1] (🔃)       clockwise vertical arrows",
text! "1F504..1F507  ; Emoji_Presentation   # E1.0   [4] (🔄..🔇)    counterclockwise arrows button..muted speaker",
text! "1F508         ; Emoji_Presentation   # E0.7   [1] (🔈)       speaker low volume",
text! "1F509         ; Emoji_Presentation   # E1.0   [1] (🔉)       speaker medium volume",
text! "1F50A..1F514  ; Emoji_Presentation   # E0.6  [11] (🔊..🔔)    speaker high volume..bell",
text! "1F515         ; Emoji_Presentation   # E1.0   [1] (🔕)       bell with slash",
text! "1F516..1F52B  ; Emoji_Presentation   # E0.6  [22] (🔖..🔫)    bookmark..water pistol",
text! "1F52C..1F52D  ; Emoji_Presentation   # E1.0   [2] (🔬..🔭)    microscope..telescope",
text! "1F52E..1F53D  ; Emoji_Presentation   # E0.6  [16] (🔮..🔽)    crystal ball..downwards button",
text! "1F54B..1F54E  ; Emoji_Presentation   # E1.0   [4] (🕋..🕎)    kaaba..menorah",
text! "1F550..1F55B  ; Emoji_Presentation   # E0.6  [12] (🕐..🕛)    one o’clock..twelve o’clock",
text! "1F55C..1F567  ; Emoji_Presentation   # E0.7  [12] (🕜..🕧)    one-thirty..twelve-thirty",
text! "1F57A         ; Emoji_Presentation   # E3.0   [1] (🕺)       man dancing",
text! "1F595..1F596  ; Emoji_Presentation   # E1.0   [2] (🖕..🖖)    middle finger..vulcan salute"]

/-- lines 577-640 -/
def emojiData9 : List Nat := [
text! "1F5A4         ; Emoji_Presentation   # E3.0   [1] (🖤)       black heart",
text! "1F5FB..1F5FF  ; Emoji_Presentation   # E0.6   [5] (🗻..🗿)    mount fuji..moai",
text! "1F600         ; Emoji_Presentation   # E1.0   [1] (😀)       grinning face",
text! "1F601..1F606  ; Emoji_Presentation   # E0.6   [6] (😁..😆)    beaming face with smiling eyes..grinning squinting face",
text! "1F607..1F608  ; Emoji_Presentation   # E1.0   [2] (😇..😈)    smiling face with halo..smiling face with horns",
text! "1F609..1F60D  ; Emoji_Presentation   # E0.6   [5] (😉..😍)    winking face..smiling face with heart-eyes",
text! "1F60E         ; Emoji_Presentation   # E1.0   [1] (😎)       smiling face with sunglasses",
text! "1F60F         ; Emoji_Presentation   # E0.6   [1] (😏)       smirking face",
text! "1F610         ; Emoji_Presentation   # E0.7   [1] (😐)       neutral face",
text! "1F611         ; Emoji_Presentation   # E1.0   [1] (😑)       expressionless face",
text! "1F612..1F614  ; Emoji_Presentation   # E0.6   [3] (😒..😔)    unamused face..pensive face",
text! "1F615         ; Emoji_Presentation   # E1.0   [1] (😕)       confused face",
text! "1F616         ; Emoji_Presentation   # E0.6   [1] (😖)       confounded face",
text! "1F617         ; Emoji_Presentation   # E1.0   [1] (😗)       kissing face",
text! "1F618         ; Emoji_Presentation   # E0.6   [1] (😘)       face blowing a kiss",
text! "1F619         ; Emoji_Presentation   # E1.0   [1] (😙)       kissing face with smiling eyes",
text! "1F61A         ; Emoji_Presentation   # E0.6   [1] (😚)       kissing face with closed eyes",
text! "1F61B         ; Emoji_Presentation   # E1.0   [1] (😛)       face with tongue",
text! "1F61C..1F61E  ; Emoji_Presentation   # E0.6   [3] (😜..😞)    winking face with tongue..disappointed face",
text! "1F61F         ; Emoji_Presentation   # E1.0   [1] (😟)       worried face",
text! "1F620..1F625  ; Emoji_Presentation   # E0.6   [6] (😠..😥)    angry face..sad but relieved face",
text! "1F626..1F627  ; Emoji_Presentation   # E1.0   [2] (😦..😧)    frowning face with open mouth..anguished face",
text! "1F628..1F62B  ; Emoji_Presentation   # E0.6   [4] (😨..😫)    fearful face..tired face",
text! "1F62C         ; Emoji_Presentation   # E1.0   [1] (😬)       grimacing face",
text! "1F62D         ; Emoji_Presentation   # E0.6   [1] (😭)       loudly crying face",
text! "1F62E..1F62F  ; Emoji_Presentation   # E1.0   [2] (😮..😯)    face with open mouth..hushed face",
text! "1F630..1F633  ; Emoji_Presentation   # E0.6   [4] (😰..😳)    anxious face with sweat..flushed face",
text! "1F634         ; Emoji_Presentation   # E1.0   [1] (😴)       sleeping face",
text! "1F635         ; Emoji_Presentation   # E0.6   [1] (😵)       face with crossed-out eyes",
text! "1F636         ; Emoji_Presentation   # E1.0   [1] (😶)       face without mouth",
text! "1F637..1F640  ; Emoji_Presentation   # E0.6  [10] (😷..🙀)    face with medical mask..weary cat",
text! "1F641..1F644  ; Emoji_Presentation   # E1.0   [4] (🙁..🙄)    slightly frowning face..face with rolling eyes",
text! "1F645..1F64F  ; Emoji_Presentation   # E0.6  [11] (🙅..🙏)    person gesturing NO..folded hands",
text! "1F680         ; Emoji_Presentation   # E0.6   [1] (🚀)       rocket",
text! "1F681..1F682  ; Emoji_Presentation   # E1.0   [2] (🚁..🚂)    helicopter..locomotive",
text! "1F683..1F685  ; Emoji_Presentation   # E0.6   [3] (🚃..🚅)    railway car..bullet train",
text! "1F686         ; Emoji_Presentation   # E1.0   [1] (🚆)       train",
text! "1F687         ; Emoji_Presentation   # E0.6   [1] (🚇)       metro",
text! "1F688         ; Emoji_Presentation   # E1.0   [1] (🚈)       light rail",
text! "1F689         ; Emoji_Presentation   # E0.6   [1] (🚉)       station",
text! "1F68A..1F68B  ; Emoji_Presentation   # E1.0   [2] (🚊..🚋)    tram..tram car",
text! "1F68C         ; Emoji_Presentation   # E0.6   [1] (🚌)       bus",
text! "1F68D         ; Emoji_Presentation   # E0.7   [1] (🚍)       oncoming bus",
text! "1F68E         ; Emoji_Presentation   # E1.0   [1] (🚎)       trolleybus",
text! "1F68F         ; Emoji_Presentation   # E0.6   [1] (🚏)       bus stop",
text! "1F690         ; Emoji_Presentation   # E1.0   [1] (🚐)       minibus",
text! "1F691..1F693  ; Emoji_Presentation   # E0.6   [3] (🚑..🚓)    ambulance..police car",
text! "1F694         ; Emoji_Presentation   # E0.7   [1] (🚔)       oncoming police car",
text! "1F695         ; Emoji_Presentation   # E0.6   [1] (🚕)       taxi",
text! "1F696         ; Emoji_Presentation   # E1.0   [1] (🚖)       oncoming taxi",
text! "1F697         ; Emoji_Presentation   # E0.6   [1] (🚗)       automobile",
text! "1F698         ; Emoji_Presentation   # E0.7   [1] (🚘)       oncoming automobile",
text! "1F699..1F69A  ; Emoji_Presentation   # E0.6   [2] (🚙..🚚)    sport utility vehicle..delivery truck",
text! "1F69B..1F6A1  ; Emoji_Presentation   # E1.0   [7] (🚛..🚡)    articulated lorry..aerial tramway",
text! "1F6A2         ; Emoji_Presentation   # E0.6   [1] (🚢)       ship",
text! "1F6A3         ; Emoji_Presentation   # E1.0   [1] (🚣)       person rowing boat",
text! "1F6A4..1F6A5  ; Emoji_Presentation   # E0.6   [2] (🚤..🚥)    speedboat..horizontal traffic light",
text! "1F6A6         ; Emoji_Presentation   # E1.0   [1] (🚦)       vertical traffic light",
text! "1F6A7..1F6AD  ; Emoji_Presentation   # E0.6   [7] (🚧..🚭)    construction..no smoking",
text! "1F6AE..1F6B1  ; Emoji_Presentation   # E1.0   [4] (🚮..🚱)    litter in bin sign..non-potable water",
text! "1F6B2         ; Emoji_Presentation   # E0.6   [1] (🚲)       bicycle",
text! "1F6B3..1F6B5  ; Emoji_Presentation   # E1.0   [3] (🚳..🚵)    no bicycles..person mountain biking",
text! "1F6B6         ; Emoji_Presentation   # E0.6   [1] (🚶)       person walking",
text! "1F6B7..1F6B8  ; Emoji_Presentation   # E1.0   [2] (🚷..🚸)    no pedestrians..children crossing"]

/-- lines 641-704 -/
def emojiData10 : List Nat := [
text! "1F6B9..1F6BE  ; Emoji_Presentation   # E0.6   [6] (🚹..🚾)    men’s room..water closet",
text! "1F6BF         ; Emoji_Presentation   # E1.0   [1] (🚿)       shower",
text! "1F6C0         ; Emoji_Presentation   # E0.6   [1] (🛀)       person taking bath",
text! "1F6C1..1F6C5  ; Emoji_Presentation   # E1.0   [5] (🛁..🛅)    bathtub..left luggage",
text! "1F6CC         ; Emoji_Presentation   # E1.0   [1] (🛌)       person in bed",
text! "1F6D0         ; Emoji_Presentation   # E1.0   [1] (🛐)       place of worship",
text! "1F6D1..1F6D2  ; Emoji_Presentation   # E3.0   [2] (🛑..🛒)    stop sign..shopping cart",
text! "1F6D5         ; Emoji_Presentation   # E12.0  [1] (🛕)       hindu temple",
text! "1F6D6..1F6D7  ; Emoji_Presentation   # E13.0  [2] (🛖..🛗)    hut..elevator",
text! "1F6D8         ; Emoji_Presentation   # E17.0  [1] (🛘)       landslide",
text! "1F6DC         ; Emoji_Presentation   # E15.0  [1] (🛜)       wireless",
text! "1F6DD..1F6DF  ; Emoji_Presentation   # E14.0  [3] (🛝..🛟)    playground slide..ring buoy",
text! "1F6EB..1F6EC  ; Emoji_Presentation   # E1.0   [2] (🛫..🛬)    airplane departure..airplane arrival",
text! "1F6F4..1F6F6  ; Emoji_Presentation   # E3.0   [3] (🛴..🛶)    kick scooter..canoe",
text! "1F6F7..1F6F8  ; Emoji_Presentation   # E5.0   [2] (🛷..🛸)    sled..flying saucer",
text! "1F6F9         ; Emoji_Presentation   # E11.0  [1] (🛹)       skateboard",
text! "1F6FA         ; Emoji_Presentation   # E12.0  [1] (🛺)       auto rickshaw",
text! "1F6FB..1F6FC  ; Emoji_Presentation   # E13.0  [2] (🛻..🛼)    pickup truck..roller skate",
text! "1F7E0..1F7EB  ; Emoji_Presentation   # E12.0 [12] (🟠..🟫)    orange circle..brown square",
text! "1F7F0         ; Emoji_Presentation   # E14.0  [1] (🟰)       heavy equals sign",
text! "1F90C         ; Emoji_Presentation   # E13.0  [1] (🤌)       pinched fingers",
text! "1F90D..1F90F  ; Emoji_Presentation   # E12.0  [3] (🤍..🤏)    white heart..pinching hand",
text! "1F910..1F918  ; Emoji_Presentation   # E1.0   [9] (🤐..🤘)    zipper-mouth face..sign of the horns",
text! "1F919..1F91E  ; Emoji_Presentation   # E3.0   [6] (🤙..🤞)    call me hand..crossed fingers",
text! "1F91F         ; Emoji_Presentation   # E5.0   [1] (🤟)       love-you gesture",
text! "1F920..1F927  ; Emoji_Presentation   # E3.0   [8] (🤠..🤧)    cowboy hat face..sneezing face",
text! "1F928..1F92F  ; Emoji_Presentation   # E5.0   [8] (🤨..🤯)    face with raised eyebrow..exploding head",
text! "1F930         ; Emoji_Presentation   # E3.0   [1] (🤰)       pregnant woman",
text! "1F931..1F932  ; Emoji_Presentation   # E5.0   [2] (🤱..🤲)    breast-feeding..palms up together",
text! "1F933..1F93A  ; Emoji_Presentation   # E3.0   [8] (🤳..🤺)    selfie..person fencing",
text! "1F93C..1F93E  ; Emoji_Presentation   # E3.0   [3] (🤼..🤾)    people wrestling..person playing handball",
text! "1F93F         ; Emoji_Presentation   # E12.0  [1] (🤿)       diving mask",
text! "1F940..1F945  ; Emoji_Presentation   # E3.0   [6] (🥀..🥅)    wilted flower..goal net",
text! "1F947..1F94B  ; Emoji_Presentation   # E3.0   [5] (🥇..🥋)    1st place medal..martial arts uniform",
text! "1F94C         ; Emoji_Presentation   # E5.0   [1] (🥌)       curling stone",
text! "1F94D..1F94F  ; Emoji_Presentation   # E11.0  [3] (🥍..🥏)    lacrosse..flying disc",
text! "1F950..1F95E  ; Emoji_Presentation   # E3.0  [15] (🥐..🥞)    croissant..pancakes",
text! "1F95F..1F96B  ; Emoji_Presentation   # E5.0  [13] (🥟..🥫)    dumpling..canned food",
text! "1F96C..1F970  ; Emoji_Presentation   # E11.0  [5] (🥬..🥰)    leafy green..smiling face with hearts",
text! "1F971         ; Emoji_Presentation   # E12.0  [1] (🥱)       yawning face",
text! "1F972         ; Emoji_Presentation   # E13.0  [1] (🥲)       smiling face with tear",
text! "1F973..1F976  ; Emoji_Presentation   # E11.0  [4] (🥳..🥶)    partying face..cold face",
text! "1F977..1F978  ; Emoji_Presentation   # E13.0  [2] (🥷..🥸)    ninja..disguised face",
text! "1F979         ; Emoji_Presentation   # E14.0  [1] (🥹)       face holding back tears",
text! "1F97A         ; Emoji_Presentation   # E11.0  [1] (🥺)       pleading face",
text! "1F97B         ; Emoji_Presentation   # E12.0  [1] (🥻)       sari",
text! "1F97C..1F97F  ; Emoji_Presentation   # E11.0  [4] (🥼..🥿)    lab coat..flat shoe",
text! "1F980..1F984  ; Emoji_Presentation   # E1.0   [5] (🦀..🦄)    crab..unicorn",
text! "1F985..1F991  ; Emoji_Presentation   # E3.0  [13] (🦅..🦑)    eagle..squid",
text! "1F992..1F997  ; Emoji_Presentation   # E5.0   [6] (🦒..🦗)    giraffe..cricket",
text! "1F998..1F9A2  ; Emoji_Presentation   # E11.0 [11] (🦘..🦢)    kangaroo..swan",
text! "1F9A3..1F9A4  ; Emoji_Presentation   # E13.0  [2] (🦣..🦤)    mammoth..dodo",
text! "1F9A5..1F9AA  ; Emoji_Presentation   # E12.0  [6] (🦥..🦪)    sloth..oyster",
text! "1F9AB..1F9AD  ; Emoji_Presentation   # E13.0  [3] (🦫..🦭)    beaver..seal",
text! "1F9AE..1F9AF  ; Emoji_Presentation   # E12.0  [2] (🦮..🦯)    guide dog..white cane",
text! "1F9B0..1F9B9  ; Emoji_Presentation   # E11.0 [10] (🦰..🦹)    red hair..supervillain",
text! "1F9BA..1F9BF  ; Emoji_Presentation   # E12.0  [6] (🦺..🦿)    safety vest..mechanical leg",
text! "1F9C0         ; Emoji_Presentation   # E1.0   [1] (🧀)       cheese wedge",
text! "1F9C1..1F9C2  ; Emoji_Presentation   # E11.0  [2] (🧁..🧂)    cupcake..salt",
text! "1F9C3..1F9CA  ; Emoji_Presentation   # E12.0  [8] (🧃..🧊)    beverage box..ice",
text! "1F9CB         ; Emoji_Presentation   # E13.0  [1] (🧋)       bubble tea",
text! "1F9CC         ; Emoji_Presentation   # E14.0  [1] (🧌)       troll",
text! "1F9CD..1F9CF  ; Emoji_Presentation   # E12.0  [3] (🧍..🧏)    person standing..deaf person",
text! "1F9D0..1F9E6  ; Emoji_Presentation   # E5.0  [23] (🧐..🧦)    face with monocle..socks"]

/-- lines 705-768 -/
def emojiData11 : List Nat := [
text! "1F9E7..1F9FF  ; Emoji_Presentation   # E11.0 [25] (🧧..🧿)    red envelope..nazar amulet",
text! "1FA70..1FA73  ; Emoji_Presentation   # E12.0  [4] (🩰..🩳)    ballet shoes..shorts",
text! "1FA74         ; Emoji_Presentation   # E13.0  [1] (🩴)       thong sandal",
text! "1FA75..1FA77  ; Emoji_Presentation   # E15.0  [3] (🩵..🩷)    light blue heart..pink heart",
text! "1FA78..1FA7A  ; Emoji_Presentation   # E12.0  [3] (🩸..🩺)    drop of blood..stethoscope",
text! "1FA7B..1FA7C  ; Emoji_Presentation   # E14.0  [2] (🩻..🩼)    x-ray..crutch",
text! "1FA80..1FA82  ; Emoji_Presentation   # E12.0  [3] (🪀..🪂)    yo-yo..parachute",
text! "1FA83..1FA86  ; Emoji_Presentation   # E13.0  [4] (🪃..🪆)    boomerang..nesting dolls",
text! "1FA87..1FA88  ; Emoji_Presentation   # E15.0  [2] (🪇..🪈)    maracas..flute",
text! "1FA89         ; Emoji_Presentation   # E16.0  [1] (🪉)       harp",
text! "1FA8A         ; Emoji_Presentation   # E17.0  [1] (🪊)       trombone",
text! "1FA8E         ; Emoji_Presentation   # E17.0  [1] (🪎)       treasure chest",
text! "1FA8F         ; Emoji_Presentation   # E16.0  [1] (🪏)       shovel",
text! "1FA90..1FA95  ; Emoji_Presentation   # E12.0  [6] (🪐..🪕)    ringed planet..banjo",
text! "1FA96..1FAA8  ; Emoji_Presentation   # E13.0 [19] (🪖..🪨)    military helmet..rock",
text! "1FAA9..1FAAC  ; Emoji_Presentation   # E14.0  [4] (🪩..🪬)    mirror ball..hamsa",
text! "1FAAD..1FAAF  ; Emoji_Presentation   # E15.0  [3] (🪭..🪯)    folding hand fan..khanda",
text! "1FAB0..1FAB6  ; Emoji_Presentation   # E13.0  [7] (🪰..🪶)    fly..feather",
text! "1FAB7..1FABA  ; Emoji_Presentation   # E14.0  [4] (🪷..🪺)    lotus..nest with eggs",
text! "1FABB..1FABD  ; Emoji_Presentation   # E15.0  [3] (🪻..🪽)    hyacinth..wing",
text! "1FABE         ; Emoji_Presentation   # E16.0  [1] (🪾)       leafless tree",
text! "1FABF         ; Emoji_Presentation   # E15.0  [1] (🪿)       goose",
text! "1FAC0..1FAC2  ; Emoji_Presentation   # E13.0  [3] (🫀..🫂)    anatomical heart..people hugging",
text! "1FAC3..1FAC5  ; Emoji_Presentation   # E14.0  [3] (🫃..🫅)    pregnant man..person with crown",
text! "1FAC6         ; Emoji_Presentation   # E16.0  [1] (🫆)       fingerprint",
text! "1FAC8         ; Emoji_Presentation   # E17.0  [1] (🫈)       hairy creature",
text! "1FACD         ; Emoji_Presentation   # E17.0  [1] (🫍)       orca",
text! "1FACE..1FACF  ; Emoji_Presentation   # E15.0  [2] (🫎..🫏)    moose..donkey",
text! "1FAD0..1FAD6  ; Emoji_Presentation   # E13.0  [7] (🫐..🫖)    blueberries..teapot",
text! "1FAD7..1FAD9  ; Emoji_Presentation   # E14.0  [3] (🫗..🫙)    pouring liquid..jar",
text! "1FADA..1FADB  ; Emoji_Presentation   # E15.0  [2] (🫚..🫛)    ginger root..pea pod",
text! "1FADC         ; Emoji_Presentation   # E16.0  [1] (🫜)       root vegetable",
text! "1FADF         ; Emoji_Presentation   # E16.0  [1] (🫟)       splatter",
text! "1FAE0..1FAE7  ; Emoji_Presentation   # E14.0  [8] (🫠..🫧)    melting face..bubbles",
text! "1FAE8         ; Emoji_Presentation   # E15.0  [1] (🫨)       shaking face",
text! "1FAE9         ; Emoji_Presentation   # E16.0  [1] (🫩)       face with bags under eyes",
text! "1FAEA         ; Emoji_Presentation   # E17.0  [1] (🫪)       distorted face",
text! "1FAEF         ; Emoji_Presentation   # E17.0  [1] (🫯)       fight cloud",
text! "1FAF0..1FAF6  ; Emoji_Presentation   # E14.0  [7] (🫰..🫶)    hand with index finger and thumb crossed..heart hands",
text! "1FAF7..1FAF8  ; Emoji_Presentation   # E15.0  [2] (🫷..🫸)    leftwards pushing hand..rightwards pushing hand",
text! "",
text! "# Total elements: 1219",
text! "",
text! "# ================================================",
text! "",
text! "# All omitted code points have Emoji_Modifier=No",
text! "",
text! "1F3FB..1F3FF  ; Emoji_Modifier       # E1.0   [5] (🏻..🏿)    light skin tone..dark skin tone",
text! "",
text! "# Total elements: 5",
text! "",
text! "# ================================================",
text! "",
text! "# All omitted code points have Emoji_Modifier_Base=No",
text! "",
text! "261D          ; Emoji_Modifier_Base  # E0.6   [1] (☝️)       index pointing up",
text! "26F9          ; Emoji_Modifier_Base  # E0.7   [1] (⛹️)       person bouncing ball",
text! "270A..270C    ; Emoji_Modifier_Base  # E0.6   [3] (✊..✌️)    raised fist..victory hand",
text! "270D          ; Emoji_Modifier_Base  # E0.7   [1] (✍️)       writing hand",
text! "1F385         ; Emoji_Modifier_Base  # E0.6   [1] (🎅)       Santa Claus",
text! "1F3C2..1F3C4  ; Emoji_Modifier_Base  # E0.6   [3] (🏂..🏄)    snowboarder..person surfing",
text! "1F3C7         ; Emoji_Modifier_Base  # E1.0   [1] (🏇)       horse racing",
text! "1F3CA         ; Emoji_Modifier_Base  # E0.6   [1] (🏊)       person swimming",
text! "1F3CB..1F3CC  ; Emoji_Modifier_Base  # E0.7   [2] (🏋️..🏌️)    person lifting weights..person golfing"]

/-- lines 769-832 -/
def emojiData12 : List Nat := [
text! "1F442..1F443  ; Emoji_Modifier_Base  # E0.6   [2] (👂..👃)    ear..nose",
text! "1F446..1F450  ; Emoji_Modifier_Base  # E0.6  [11] (👆..👐)    backhand index pointing up..open hands",
text! "1F466..1F46B  ; Emoji_Modifier_Base  # E0.6   [6] (👦..👫)    boy..woman and man holding hands",
text! "1F46C..1F46D  ; Emoji_Modifier_Base  # E1.0   [2] (👬..👭)    men holding hands..women holding hands",
text! "1F46E..1F478  ; Emoji_Modifier_Base  # E0.6  [11] (👮..👸)    police officer..princess",
text! "1F47C         ; Emoji_Modifier_Base  # E0.6   [1] (👼)       baby angel",
text! "1F481..1F483  ; Emoji_Modifier_Base  # E0.6   [3] (💁..💃)    person tipping hand..woman dancing",
text! "1F485..1F487  ; Emoji_Modifier_Base  # E0.6   [3] (💅..💇)    nail polish..person getting haircut",
text! "1F48F         ; Emoji_Modifier_Base  # E0.6   [1] (💏)       kiss",
text! "1F491         ; Emoji_Modifier_Base  # E0.6   [1] (💑)       couple with heart",
text! "1F4AA         ; Emoji_Modifier_Base  # E0.6   [1] (💪)       flexed biceps",
text! "1F574..1F575  ; Emoji_Modifier_Base  # E0.7   [2] (🕴️..🕵️)    person in suit levitating..detective",
text! "1F57A         ; Emoji_Modifier_Base  # E3.0   [1] (🕺)       man dancing",
text! "1F590         ; Emoji_Modifier_Base  # E0.7   [1] (🖐️)       hand with fingers splayed",
text! "1F595..1F596  ; Emoji_Modifier_Base  # E1.0   [2] (🖕..🖖)    middle finger..vulcan salute",
text! "1F645..1F647  ; Emoji_Modifier_Base  # E0.6   [3] (🙅..🙇)    person gesturing NO..person bowing",
text! "1F64B..1F64F  ; Emoji_Modifier_Base  # E0.6   [5] (🙋..🙏)    person raising hand..folded hands",
text! "1F6A3         ; Emoji_Modifier_Base  # E1.0   [1] (🚣)       person rowing boat",
text! "1F6B4..1F6B5  ; Emoji_Modifier_Base  # E1.0   [2] (🚴..🚵)    person biking..person mountain biking",
text! "1F6B6         ; Emoji_Modifier_Base  # E0.6   [1] (🚶)       person walking",
text! "1F6C0         ; Emoji_Modifier_Base  # E0.6   [1] (🛀)       person taking bath",
text! "1F6CC         ; Emoji_Modifier_Base  # E1.0   [1] (🛌)       person in bed",
text! "1F90C         ; Emoji_Modifier_Base  # E13.0  [1] (🤌)       pinched fingers",
text! "1F90F         ; Emoji_Modifier_Base  # E12.0  [1] (🤏)       pinching hand",
text! "1F918         ; Emoji_Modifier_Base  # E1.0   [1] (🤘)       sign of the horns",
text! "1F919..1F91E  ; Emoji_Modifier_Base  # E3.0   [6] (🤙..🤞)    call me hand..crossed fingers",
text! "1F91F         ; Emoji_Modifier_Base  # E5.0   [1] (🤟)       love-you gesture",
text! "1F926         ; Emoji_Modifier_Base  # E3.0   [1] (🤦)       person facepalming",
text! "1F930         ; Emoji_Modifier_Base  # E3.0   [1] (🤰)       pregnant woman",
text! "1F931..1F932  ; Emoji_Modifier_Base  # E5.0   [2] (🤱..🤲)    breast-feeding..palms up together",
text! "1F933..1F939  ; Emoji_Modifier_Base  # E3.0   [7] (🤳..🤹)    selfie..person juggling",
text! "1F93C..1F93E  ; Emoji_Modifier_Base  # E3.0   [3] (🤼..🤾)    people wrestling..person playing handball",
text! "1F977         ; Emoji_Modifier_Base  # E13.0  [1] (🥷)       ninja",
text! "1F9B5..1F9B6  ; Emoji_Modifier_Base  # E11.0  [2] (🦵..🦶)    leg..foot",
text! "1F9B8..1F9B9  ; Emoji_Modifier_Base  # E11.0  [2] (🦸..🦹)    superhero..supervillain",
text! "1F9BB         ; Emoji_Modifier_Base  # E12.0  [1] (🦻)       ear with hearing aid",
text! "1F9CD..1F9CF  ; Emoji_Modifier_Base  # E12.0  [3] (🧍..🧏)    person standing..deaf person",
text! "1F9D1..1F9DD  ; Emoji_Modifier_Base  # E5.0  [13] (🧑..🧝)    person..elf",
text! "1FAC3..1FAC5  ; Emoji_Modifier_Base  # E14.0  [3] (🫃..🫅)    pregnant man..person with crown",
text! "1FAF0..1FAF6  ; Emoji_Modifier_Base  # E14.0  [7] (🫰..🫶)    hand with index finger and thumb crossed..heart hands",
text! "1FAF7..1FAF8  ; Emoji_Modifier_Base  # E15.0  [2] (🫷..🫸)    leftwards pushing hand..rightwards pushing hand",
text! "",
text! "# Total elements: 134",
text! "",
text! "# ================================================",
text! "",
text! "# All omitted code points have Emoji_Component=No",
text! "",
text! "0023          ; Emoji_Component      # E0.0   [1] (#️)       hash sign",
text! "002A          ; Emoji_Component      # E0.0   [1] (*️)       asterisk",
text! "0030..0039    ; Emoji_Component      # E0.0  [10] (0️..9️)    digit zero..digit nine",
text! "200D          ; Emoji_Component      # E0.0   [1] (‍)        zero width joiner",
text! "20E3          ; Emoji_Component      # E0.0   [1] (⃣)       combining enclosing keycap",
text! "FE0F          ; Emoji_Component      # E0.0   [1] ()        VARIATION SELECTOR-16",
text! "1F1E6..1F1FF  ; Emoji_Component      # E0.0  [26] (🇦..🇿)    regional indicator symbol letter a..regional indicator symbol letter z",
text! "1F3FB..1F3FF  ; Emoji_Component      # E1.0   [5] (🏻..🏿)    light skin tone..dark skin tone",
text! "1F9B0..1F9B3  ; Emoji_Component      # E11.0  [4] (🦰..🦳)    red hair..white hair",
text! "E0020..E007F  ; Emoji_Component      # E0.0  [96] (󠀠..󠁿)      tag space..cancel tag",
text! "",
text! "# Total elements: 146",
text! "",
text! "# ================================================",
text! "",
text! "# All omitted code points have Extended_Pictographic=No"]

/-- lines 833-896 -/
def emojiData13 : List Nat := [
text! "",
text! "00A9          ; Extended_Pictographic# E0.6   [1] (©️)       copyright",
text! "00AE          ; Extended_Pictographic# E0.6   [1] (®️)       registered",
text! "203C          ; Extended_Pictographic# E0.6   [1] (‼️)       double exclamation mark",
text! "2049          ; Extended_Pictographic# E0.6   [1] (⁉️)       exclamation question mark",
text! "2122          ; Extended_Pictographic# E0.6   [1] (™️)       trade mark",
text! "2139          ; Extended_Pictographic# E0.6   [1] (ℹ️)       information",
text! "2194..2199    ; Extended_Pictographic# E0.6   [6] (↔️..↙️)    left-right arrow..down-left arrow",
text! "21A9..21AA    ; Extended_Pictographic# E0.6   [2] (↩️..↪️)    right arrow curving left..left arrow curving right",
text! "231A..231B    ; Extended_Pictographic# E0.6   [2] (⌚..⌛)    watch..hourglass done",
text! "2328          ; Extended_Pictographic# E1.0   [1] (⌨️)       keyboard",
text! "23CF          ; Extended_Pictographic# E1.0   [1] (⏏️)       eject button",
text! "23E9..23EC    ; Extended_Pictographic# E0.6   [4] (⏩..⏬)    fast-forward button..fast down button",
text! "23ED..23EE    ; Extended_Pictographic# E0.7   [2] (⏭️..⏮️)    next track button..last track button",
text! "23EF          ; Extended_Pictographic# E1.0   [1] (⏯️)       play or pause button",
text! "23F0          ; Extended_Pictographic# E0.6   [1] (⏰)       alarm clock",
text! "23F1..23F2    ; Extended_Pictographic# E1.0   [2] (⏱️..⏲️)    stopwatch..timer clock",
text! "23F3          ; Extended_Pictographic# E0.6   [1] (⏳)       hourglass not done",
text! "23F8..23FA    ; Extended_Pictographic# E0.7   [3] (⏸️..⏺️)    pause button..record button",
text! "24C2          ; Extended_Pictographic# E0.6   [1] (Ⓜ️)       circled M",
text! "25AA..25AB    ; Extended_Pictographic# E0.6   [2] (▪️..▫️)    black small square..white small square",
text! "25B6          ; Extended_Pictographic# E0.6   [1] (▶️)       play button",
text! "25C0          ; Extended_Pictographic# E0.6   [1] (◀️)       reverse button",
text! "25FB..25FE    ; Extended_Pictographic# E0.6   [4] (◻️..◾)    white medium square..black medium-small square",
text! "2600..2601    ; Extended_Pictographic# E0.6   [2] (☀️..☁️)    sun..cloud",
text! "2602..2603    ; Extended_Pictographic# E0.7   [2] (☂️..☃️)    umbrella..snowman",
text! "2604          ; Extended_Pictographic# E1.0   [1] (☄️)       comet",
text! "260E          ; Extended_Pictographic# E0.6   [1] (☎️)       telephone",
text! "2611          ; Extended_Pictographic# E0.6   [1] (☑️)       check box with check",
text! "2614..2615    ; Extended_Pictographic# E0.6   [2] (☔..☕)    umbrella with rain drops..hot beverage",
text! "2618          ; Extended_Pictographic# E1.0   [1] (☘️)       shamrock",
text! "261D          ; Extended_Pictographic# E0.6   [1] (☝️)       index pointing up",
text! "2620          ; Extended_Pictographic# E1.0   [1] (☠️)       skull and crossbones",
text! "2622..2623    ; Extended_Pictographic# E1.0   [2] (☢️..☣️)    radioactive..biohazard",
text! "2626          ; Extended_Pictographic# E1.0   [1] (☦️)       orthodox cross",
text! "262A          ; Extended_Pictographic# E0.7   [1] (☪️)       star and crescent",
text! "262E          ; Extended_Pictographic# E1.0   [1] (☮️)       peace symbol",
text! "262F          ; Extended_Pictographic# E0.7   [1] (☯️)       yin yang",
text! "2638..2639    ; Extended_Pictographic# E0.7   [2] (☸️..☹️)    wheel of dharma..frowning face",
text! "263A          ; Extended_Pictographic# E0.6   [1] (☺️)       smiling face",
text! "2640          ; Extended_Pictographic# E4.0   [1] (♀️)       female sign",
text! "2642          ; Extended_Pictographic# E4.0   [1] (♂️)       male sign",
text! "2648..2653    ; Extended_Pictographic# E0.6  [12] (♈..♓)    Aries..Pisces",
text! "265F          ; Extended_Pictographic# E11.0  [1] (♟️)       chess pawn",
text! "2660          ; Extended_Pictographic# E0.6   [1] (♠️)       spade suit",
text! "2663          ; Extended_Pictographic# E0.6   [1] (♣️)       club suit",
text! "2665..2666    ; Extended_Pictographic# E0.6   [2] (♥️..♦️)    heart suit..diamond suit",
text! "2668          ; Extended_Pictographic# E0.6   [1] (♨️)       hot springs",
text! "267B          ; Extended_Pictographic# E0.6   [1] (♻️)       recycling symbol",
text! "267E          ; Extended_Pictographic# E11.0  [1] (♾️)       infinity",
text! "267F          ; Extended_Pictographic# E0.6   [1] (♿)       wheelchair symbol",
text! "2692          ; Extended_Pictographic# E1.0   [1] (⚒️)       hammer and pick",
text! "2693          ; Extended_Pictographic# E0.6   [1] (⚓)       anchor",
text! "2694          ; Extended_Pictographic# E1.0   [1] (⚔️)       crossed swords",
text! "2695          ; Extended_Pictographic# E4.0   [1] (⚕️)       medical symbol",
text! "2696..2697    ; Extended_Pictographic# E1.0   [2] (⚖️..⚗️)    balance scale..alembic",
text! "2699          ; Extended_Pictographic# E1.0   [1] (⚙️)       gear",
text! "269B..269C    ; Extended_Pictographic# E1.0   [2] (⚛️..⚜️)    atom symbol..fleur-de-lis",
text! "26A0..26A1    ; Extended_Pictographic# E0.6   [2] (⚠️..⚡)    warning..high voltage",
text! "26A7          ; Extended_Pictographic# E13.0  [1] (⚧️)       transgender symbol",
text! "26AA..26AB    ; Extended_Pictographic# E0.6   [2] (⚪..⚫)    white circle..black circle",
text! "26B0..26B1    ; Extended_Pictographic# E1.0   [2] (⚰️..⚱️)    coffin..funeral urn",
text! "26BD..26BE    ; Extended_Pictographic# E0.6   [2] (⚽..⚾)    soccer ball..baseball",
text! "26C4..26C5    ; Extended_Pictographic# E0.6   [2] (⛄..⛅)    snowman without snow..sun behind cloud"]

/-- lines 897-960 -/
def emojiData14 : List Nat := [
text! "26C8          ; Extended_Pictographic# E0.7   [1] (⛈️)       cloud with lightning and rain",
text! "26CE          ; Extended_Pictographic# E0.6   [1] (⛎)       Ophiuchus",
text! "26CF          ; Extended_Pictographic# E0.7   [1] (⛏️)       pick",
text! "26D1          ; Extended_Pictographic# E0.7   [1] (⛑️)       rescue worker’s helmet",
text! "26D3          ; Extended_Pictographic# E0.7   [1] (⛓️)       chains",
text! "26D4          ; Extended_Pictographic# E0.6   [1] (⛔)       no entry",
text! "26E9          ; Extended_Pictographic# E0.7   [1] (⛩️)       shinto shrine",
text! "26EA          ; Extended_Pictographic# E0.6   [1] (⛪)       church",
text! "26F0..26F1    ; Extended_Pictographic# E0.7   [2] (⛰️..⛱️)    mountain..umbrella on ground",
text! "26F2..26F3    ; Extended_Pictographic# E0.6   [2] (⛲..⛳)    fountain..flag in hole",
text! "26F4          ; Extended_Pictographic# E0.7   [1] (⛴️)       ferry",
text! "26F5          ; Extended_Pictographic# E0.6   [1] (⛵)       sailboat",
text! "26F7..26F9    ; Extended_Pictographic# E0.7   [3] (⛷️..⛹️)    skier..person bouncing ball",
text! "26FA          ; Extended_Pictographic# E0.6   [1] (⛺)       tent",
text! "26FD          ; Extended_Pictographic# E0.6   [1] (⛽)       fuel pump",
text! "2702          ; Extended_Pictographic# E0.6   [1] (✂️)       scissors",
text! "2705          ; Extended_Pictographic# E0.6   [1] (✅)       check mark button",
text! "2708..270C    ; Extended_Pictographic# E0.6   [5] (✈️..✌️)    airplane..victory hand",
text! "270D          ; Extended_Pictographic# E0.7   [1] (✍️)       writing hand",
text! "270F          ; Extended_Pictographic# E0.6   [1] (✏️)       pencil",
text! "2712          ; Extended_Pictographic# E0.6   [1] (✒️)       black nib",
text! "2714          ; Extended_Pictographic# E0.6   [1] (✔️)       check mark",
text! "2716          ; Extended_Pictographic# E0.6   [1] (✖️)       multiply",
text! "271D          ; Extended_Pictographic# E0.7   [1] (✝️)       latin cross",
text! "2721          ; Extended_Pictographic# E0.7   [1] (✡️)       star of David",
text! "2728          ; Extended_Pictographic# E0.6   [1] (✨)       sparkles",
text! "2733..2734    ; Extended_Pictographic# E0.6   [2] (✳️..✴️)    eight-spoked asterisk..eight-pointed star",
text! "2744          ; Extended_Pictographic# E0.6   [1] (❄️)       snowflake",
text! "2747          ; Extended_Pictographic# E0.6   [1] (❇️)       sparkle",
text! "274C          ; Extended_Pictographic# E0.6   [1] (❌)       cross mark",
text! "274E          ; Extended_Pictographic# E0.6   [1] (❎)       cross mark button",
text! "2753..2755    ; Extended_Pictographic# E0.6   [3] (❓..❕)    red question mark..white exclamation mark",
text! "2757          ; Extended_Pictographic# E0.6   [1] (❗)       red exclamation mark",
text! "2763          ; Extended_Pictographic# E1.0   [1] (❣️)       heart exclamation",
text! "2764          ; Extended_Pictographic# E0.6   [1] (❤️)       red heart",
text! "2795..2797    ; Extended_Pictographic# E0.6   [3] (➕..➗)    plus..divide",
text! "27A1          ; Extended_Pictographic# E0.6   [1] (➡️)       right arrow",
text! "27B0          ; Extended_Pictographic# E0.6   [1] (➰)       curly loop",
text! "27BF          ; Extended_Pictographic# E1.0   [1] (➿)       double curly loop",
text! "2934..2935    ; Extended_Pictographic# E0.6   [2] (⤴️..⤵️)    right arrow curving up..right arrow curving down",
text! "2B05..2B07    ; Extended_Pictographic# E0.6   [3] (⬅️..⬇️)    left arrow..down arrow",
text! "2B1B..2B1C    ; Extended_Pictographic# E0.6   [2] (⬛..⬜)    black large square..white large square",
text! "2B50          ; Extended_Pictographic# E0.6   [1] (⭐)       star",
text! "2B55          ; Extended_Pictographic# E0.6   [1] (⭕)       hollow red circle",
text! "3030          ; Extended_Pictographic# E0.6   [1] (〰️)       wavy dash",
text! "303D          ; Extended_Pictographic# E0.6   [1] (〽️)       part alternation mark",
text! "3297          ; Extended_Pictographic# E0.6   [1] (㊗️)       Japanese “congratulations” button",
text! "3299          ; Extended_Pictographic# E0.6   [1] (㊙️)       Japanese “secret” button",
text! "1F004         ; Extended_Pictographic# E0.6   [1] (🀄)       mahjong red dragon",
text! "1F02C..1F02F  ; Extended_Pictographic# E0.0   [4] (🀬..🀯)    <reserved-1F02C>..<reserved-1F02F>",
text! "1F094..1F09F  ; Extended_Pictographic# E0.0  [12] (🂔..🂟)    <reserved-1F094>..<reserved-1F09F>",
text! "1F0AF..1F0B0  ; Extended_Pictographic# E0.0   [2] (🂯..🂰)    <reserved-1F0AF>..<reserved-1F0B0>",
text! "1F0C0         ; Extended_Pictographic# E0.0   [1] (🃀)       <reserved-1F0C0>",
text! "1F0CF         ; Extended_Pictographic# E0.6   [1] (🃏)       joker",
text! "1F0D0         ; Extended_Pictographic# E0.0   [1] (🃐)       <reserved-1F0D0>",
text! "1F0F6..1F0FF  ; Extended_Pictographic# E0.0  [10] (🃶..🃿)    <reserved-1F0F6>..<reserved-1F0FF>",
text! "1F170..1F171  ; Extended_Pictographic# E0.6   [2] (🅰️..🅱️)    A button (blood type)..B button (blood type)",
text! "1F17E..1F17F  ; Extended_Pictographic# E0.6   [2] (🅾️..🅿️)    O button (blood type)..P button",
text! "1F18E         ; Extended_Pictographic# E0.6   [1] (🆎)       AB button (blood type)",
text! "1F191..1F19A  ; Extended_Pictographic# E0.6  [10] (🆑..🆚)    CL button..VS button",
text! "1F1AE..1F1E5  ; Extended_Pictographic# E0.0  [56] (🆮..🇥)    <reserved-1F1AE>..<reserved-1F1E5>",
text! "1F201..1F202  ; Extended_Pictographic# E0.6   [2] (🈁..🈂️)    Japanese “here” button..Japanese “service charge” button",
text! "1F203..1F20F  ; Extended_Pictographic# E0.0  [13] (🈃..🈏)    <reserved-1F203>..<reserved-1F20F>",
text! "1F21A         ; Extended_Pictographic# E0.6   [1] (🈚)       Japanese “free of charge” button"]

/-- lines 961-1024 -/
def emojiData15 : List Nat := [
text! "1F22F         ; Extended_Pictographic# E0.6   [1] (🈯)       Japanese “reserved” button",
text! "1F232..1F23A  ; Extended_Pictographic# E0.6   [9] (🈲..🈺)    Japanese “prohibited” button..Japanese “open for business” button",
text! "1F23C..1F23F  ; Extended_Pictographic# E0.0   [4] (🈼..🈿)    <reserved-1F23C>..<reserved-1F23F>",
text! "1F249..1F24F  ; Extended_Pictographic# E0.0   [7] (🉉..🉏)    <reserved-1F249>..<reserved-1F24F>",
text! "1F250..1F251  ; Extended_Pictographic# E0.6   [2] (🉐..🉑)    Japanese “bargain” button..Japanese “acceptable” button",
text! "1F252..1F25F  ; Extended_Pictographic# E0.0  [14] (🉒..🉟)    <reserved-1F252>..<reserved-1F25F>",
text! "1F266..1F2FF  ; Extended_Pictographic# E0.0 [154] (🉦..🋿)    <reserved-1F266>..<reserved-1F2FF>",
text! "1F300..1F30C  ; Extended_Pictographic# E0.6  [13] (🌀..🌌)    cyclone..milky way",
text! "1F30D..1F30E  ; Extended_Pictographic# E0.7   [2] (🌍..🌎)    globe showing Europe-Africa..globe showing Americas",
text! "1F30F         ; Extended_Pictographic# E0.6   [1] (🌏)       globe showing Asia-Australia",
text! "1F310         ; Extended_Pictographic# E1.0   [1] (🌐)       globe with meridians",
text! "1F311         ; Extended_Pictographic# E0.6   [1] (🌑)       new moon",
text! "1F312         ; Extended_Pictographic# E1.0   [1] (🌒)       waxing crescent moon",
text! "1F313..1F315  ; Extended_Pictographic# E0.6   [3] (🌓..🌕)    first quarter moon..full moon",
text! "1F316..1F318  ; Extended_Pictographic# E1.0   [3] (🌖..🌘)    waning gibbous moon..waning crescent moon",
text! "1F319         ; Extended_Pictographic# E0.6   [1] (🌙)       crescent moon",
text! "1F31A         ; Extended_Pictographic# E1.0   [1] (🌚)       new moon face",
text! "1F31B         ; Extended_Pictographic# E0.6   [1] (🌛)       first quarter moon face",
text! "1F31C         ; Extended_Pictographic# E0.7   [1] (🌜)       last quarter moon face",
text! "1F31D..1F31E  ; Extended_Pictographic# E1.0   [2] (🌝..🌞)    full moon face..sun with face",
text! "1F31F..1F320  ; Extended_Pictographic# E0.6   [2] (🌟..🌠)    glowing star..shooting star",
text! "1F321         ; Extended_Pictographic# E0.7   [1] (🌡️)       thermometer",
text! "1F324..1F32C  ; Extended_Pictographic# E0.7   [9] (🌤️..🌬️)    sun behind small cloud..wind face",
text! "1F32D..1F32F  ; Extended_Pictographic# E1.0   [3] (🌭..🌯)    hot dog..burrito",
text! "1F330..1F331  ; Extended_Pictographic# E0.6   [2] (🌰..🌱)    chestnut..seedling",
text! "1F332..1F333  ; Extended_Pictographic# E1.0   [2] (🌲..🌳)    evergreen tree..deciduous tree",
text! "1F334..1F335  ; Extended_Pictographic# E0.6   [2] (🌴..🌵)    palm tree..cactus",
text! "1F336         ; Extended_Pictographic# E0.7   [1] (🌶️)       hot pepper",
text! "1F337..1F34A  ; Extended_Pictographic# E0.6  [20] (🌷..🍊)    tulip..tangerine",
text! "1F34B         ; Extended_Pictographic# E1.0   [1] (🍋)       lemon",
text! "1F34C..1F34F  ; Extended_Pictographic# E0.6   [4] (🍌..🍏)    banana..green apple",
text! "1F350         ; Extended_Pictographic# E1.0   [1] (🍐)       pear",
text! "1F351..1F37B  ; Extended_Pictographic# E0.6  [43] (🍑..🍻)    peach..clinking beer mugs",
text! "1F37C         ; Extended_Pictographic# E1.0   [1] (🍼)       baby bottle",
text! "1F37D         ; Extended_Pictographic# E0.7   [1] (🍽️)       fork and knife with plate",
text! "1F37E..1F37F  ; Extended_Pictographic# E1.0   [2] (🍾..🍿)    bottle with popping cork..popcorn",
text! "1F380..1F393  ; Extended_Pictographic# E0.6  [20] (🎀..🎓)    ribbon..graduation cap",
text! "1F396..1F397  ; Extended_Pictographic# E0.7   [2] (🎖️..🎗️)    military medal..reminder ribbon",
text! "1F399..1F39B  ; Extended_Pictographic# E0.7   [3] (🎙️..🎛️)    studio microphone..control knobs",
text! "1F39E..1F39F  ; Extended_Pictographic# E0.7   [2] (🎞️..🎟️)    film frames..admission tickets",
text! "1F3A0..1F3C4  ; Extended_Pictographic# E0.6  [37] (🎠..🏄)    carousel horse..person surfing",
text! "1F3C5         ; Extended_Pictographic# E1.0   [1] (🏅)       sports medal",
text! "1F3C6         ; Extended_Pictographic# E0.6   [1] (🏆)       trophy",
text! "1F3C7         ; Extended_Pictographic# E1.0   [1] (🏇)       horse racing",
text! "1F3C8         ; Extended_Pictographic# E0.6   [1] (🏈)       american football",
text! "1F3C9         ; Extended_Pictographic# E1.0   [1] (🏉)       rugby football",
text! "1F3CA         ; Extended_Pictographic# E0.6   [1] (🏊)       person swimming",
text! "1F3CB..1F3CE  ; Extended_Pictographic# E0.7   [4] (🏋️..🏎️)    person lifting weights..racing car",
text! "1F3CF..1F3D3  ; Extended_Pictographic# E1.0   [5] (🏏..🏓)    cricket game..ping pong",
text! "1F3D4..1F3DF  ; Extended_Pictographic# E0.7  [12] (🏔️..🏟️)    snow-capped mountain..stadium",
text! "1F3E0..1F3E3  ; Extended_Pictographic# E0.6   [4] (🏠..🏣)    house..Japanese post office",
text! "1F3E4         ; Extended_Pictographic# E1.0   [1] (🏤)       post office",
text! "1F3E5..1F3F0  ; Extended_Pictographic# E0.6  [12] (🏥..🏰)    hospital..castle",
text! "1F3F3         ; Extended_Pictographic# E0.7   [1] (🏳️)       white flag",
text! "1F3F4         ; Extended_Pictographic# E1.0   [1] (🏴)       black flag",
text! "1F3F5         ; Extended_Pictographic# E0.7   [1] (🏵️)       rosette",
text! "1F3F7         ; Extended_Pictographic# E0.7   [1] (🏷️)       label",
text! "1F3F8..1F3FA  ; Extended_Pictographic# E1.0   [3] (🏸..🏺)    badminton..amphora",
text! "1F400..1F407  ; Extended_Pictographic# E1.0   [8] (🐀..🐇)    rat..rabbit",
text! "1F408         ; Extended_Pictographic# E0.7   [1] (🐈)       cat",
text! "1F409..1F40B  ; Extended_Pictographic# E1.0   [3] (🐉..🐋)    dragon..whale",
text! "1F40C..1F40E  ; Extended_Pictographic# E0.6   [3] (🐌..🐎)    snail..horse",
text! "1F40F..1F410  ; Extended_Pictographic# E1.0   [2] (🐏..🐐)    ram..goat",
text! "1F411..1F412  ; Extended_Pictographic# E0.6   [2] (🐑..🐒)    ewe..monkey"]

/-- lines 1025-1088 -/
def emojiData16 : List Nat := [
text! "1F413         ; Extended_Pictographic# E1.0   [1] (🐓)       rooster",
text! "1F414         ; Extended_Pictographic# E0.6   [1] (🐔)       chicken",
text! "1F415         ; Extended_Pictographic# E0.7   [1] (🐕)       dog",
text! "1F416         ; Extended_Pictographic# E1.0   [1] (🐖)       pig",
text! "1F417..1F429  ; Extended_Pictographic# E0.6  [19] (🐗..🐩)    boar..poodle",
text! "1F42A         ; Extended_Pictographic# E1.0   [1] (🐪)       camel",
text! "1F42B..1F43E  ; Extended_Pictographic# E0.6  [20] (🐫..🐾)    two-hump camel..paw prints",
text! "1F43F         ; Extended_Pictographic# E0.7   [1] (🐿️)       chipmunk",
text! "1F440         ; Extended_Pictographic# E0.6   [1] (👀)       eyes",
text! "1F441         ; Extended_Pictographic# E0.7   [1] (👁️)       eye",
text! "1F442..1F464  ; Extended_Pictographic# E0.6  [35] (👂..👤)    ear..bust in silhouette",
text! "1F465         ; Extended_Pictographic# E1.0   [1] (👥)       busts in silhouette",
text! "1F466..1F46B  ; Extended_Pictographic# E0.6   [6] (👦..👫)    boy..woman and man holding hands",
text! "1F46C..1F46D  ; Extended_Pictographic# E1.0   [2] (👬..👭)    men holding hands..women holding hands",
text! "1F46E..1F4AC  ; Extended_Pictographic# E0.6  [63] (👮..💬)    police officer..speech balloon",
text! "1F4AD         ; Extended_Pictographic# E1.0   [1] (💭)       thought balloon",
text! "1F4AE..1F4B5  ; Extended_Pictographic# E0.6   [8] (💮..💵)    white flower..dollar banknote",
text! "1F4B6..1F4B7  ; Extended_Pictographic# E1.0   [2] (💶..💷)    euro banknote..pound banknote",
text! "1F4B8..1F4EB  ; Extended_Pictographic# E0.6  [52] (💸..📫)    money with wings..closed mailbox with raised flag",
text! "1F4EC..1F4ED  ; Extended_Pictographic# E0.7   [2] (📬..📭)    open mailbox with raised flag..open mailbox with lowered flag",
text! "1F4EE         ; Extended_Pictographic# E0.6   [1] (📮)       postbox",
text! "1F4EF         ; Extended_Pictographic# E1.0   [1] (📯)       postal horn",
text! "1F4F0..1F4F4  ; Extended_Pictographic# E0.6   [5] (📰..📴)    newspaper..mobile phone off",
text! "1F4F5         ; Extended_Pictographic# E1.0   [1] (📵)       no mobile phones",
text! "1F4F6..1F4F7  ; Extended_Pictographic# E0.6   [2] (📶..📷)    antenna bars..camera",
text! "1F4F8         ; Extended_Pictographic# E1.0   [1] (📸)       camera with flash",
text! "1F4F9..1F4FC  ; Extended_Pictographic# E0.6   [4] (📹..📼)    video camera..videocassette",
text! "1F4FD         ; Extended_Pictographic# E0.7   [1] (📽️)       film projector",
text! "1F4FF..1F502  ; Extended_Pictographic# E1.0   [4] (📿..🔂)    prayer beads..repeat single button",
text! "1F503         ; Extended_Pictographic# E0.6   [1] (🔃)       clockwise vertical arrows",
text! "1F504..1F507  ; Extended_Pictographic# E1.0   [4] (🔄..🔇)    counterclockwise arrows button..muted speaker",
text! "1F508         ; Extended_Pictographic# E0.7   [1] (🔈)       speaker low volume",
text! "1F509         ; Extended_Pictographic# E1.0   [1] (🔉)       speaker medium volume",
text! "1F50A..1F514  ; Extended_Pictographic# E0.6  [11] (🔊..🔔)    speaker high volume..bell",
text! "1F515         ; Extended_Pictographic# E1.0   [1] (🔕)       bell with slash",
text! "1F516..1F52B  ; Extended_Pictographic# E0.6  [22] (🔖..🔫)    bookmark..water pistol",
text! "1F52C..1F52D  ; Extended_Pictographic# E1.0   [2] (🔬..🔭)    microscope..telescope",
text! "1F52E..1F53D  ; Extended_Pictographic# E0.6  [16] (🔮..🔽)    crystal ball..downwards button",
text! "1F549..1F54A  ; Extended_Pictographic# E0.7   [2] (🕉️..🕊️)    om..dove",
text! "1F54B..1F54E  ; Extended_Pictographic# E1.0   [4] (🕋..🕎)    kaaba..menorah",
text! "1F550..1F55B  ; Extended_Pictographic# E0.6  [12] (🕐..🕛)    one o’clock..twelve o’clock",
text! "1F55C..1F567  ; Extended_Pictographic# E0.7  [12] (🕜..🕧)    one-thirty..twelve-thirty",
text! "1F56F..1F570  ; Extended_Pictographic# E0.7   [2] (🕯️..🕰️)    candle..mantelpiece clock",
text! "1F573..1F579  ; Extended_Pictographic# E0.7   [7] (🕳️..🕹️)    hole..joystick",
text! "1F57A         ; Extended_Pictographic# E3.0   [1] (🕺)       man dancing",
text! "1F587         ; Extended_Pictographic# E0.7   [1] (🖇️)       linked paperclips",
text! "1F58A..1F58D  ; Extended_Pictographic# E0.7   [4] (🖊️..🖍️)    pen..crayon",
text! "1F590         ; Extended_Pictographic# E0.7   [1] (🖐️)       hand with fingers splayed",
text! "1F595..1F596  ; Extended_Pictographic# E1.0   [2] (🖕..🖖)    middle finger..vulcan salute",
text! "1F5A4         ; Extended_Pictographic# E3.0   [1] (🖤)       black heart",
text! "1F5A5         ; Extended_Pictographic# E0.7   [1] (🖥️)       desktop computer",
text! "1F5A8         ; Extended_Pictographic# E0.7   [1] (🖨️)       printer",
text! "1F5B1..1F5B2  ; Extended_Pictographic# E0.7   [2] (🖱️..🖲️)    computer mouse..trackball",
text! "1F5BC         ; Extended_Pictographic# E0.7   [1] (🖼️)       framed picture",
text! "1F5C2..1F5C4  ; Extended_Pictographic# E0.7   [3] (🗂️..🗄️)    card index dividers..file cabinet",
text! "1F5D1..1F5D3  ; Extended_Pictographic# E0.7   [3] (🗑️..🗓️)    wastebasket..spiral calendar",
text! "1F5DC..1F5DE  ; Extended_Pictographic# E0.7   [3] (🗜️..🗞️)    clamp..rolled-up newspaper",
text! "1F5E1         ; Extended_Pictographic# E0.7   [1] (🗡️)       dagger",
text! "1F5E3         ; Extended_Pictographic# E0.7   [1] (🗣️)       speaking head",
text! "1F5E8         ; Extended_Pictographic# E2.0   [1] (🗨️)       left speech bubble",
text! "1F5EF         ; Extended_Pictographic# E0.7   [1] (🗯️)       right anger bubble",
text! "1F5F3         ; Extended_Pictographic# E0.7   [1] (🗳️)       ballot box with ballot",
text! "1F5FA         ; Extended_Pictographic# E0.7   [1] (🗺️)       world map",
text! "1F5FB..1F5FF  ; Extended_Pictographic# E0.6   [5] (🗻..🗿)    mount fuji..moai"]

/-- lines 1089-1152 -/
def emojiData17 : List Nat := [
text! "1F600         ; Extended_Pictographic# E1.0   [1] (😀)       grinning face",
text! "1F601..1F606  ; Extended_Pictographic# E0.6   [6] (😁..😆)    beaming face with smiling eyes..grinning squinting face",
text! "1F607..1F608  ; Extended_Pictographic# E1.0   [2] (😇..😈)    smiling face with halo..smiling face with horns",
text! "1F609..1F60D  ; Extended_Pictographic# E0.6   [5] (😉..😍)    winking face..smiling face with heart-eyes",
text! "1F60E         ; Extended_Pictographic# E1.0   [1] (😎)       smiling face with sunglasses",
text! "1F60F         ; Extended_Pictographic# E0.6   [1] (😏)       smirking face",
text! "1F610         ; Extended_Pictographic# E0.7   [1] (😐)       neutral face",
text! "1F611         ; Extended_Pictographic# E1.0   [1] (😑)       expressionless face",
text! "1F612..1F614  ; Extended_Pictographic# E0.6   [3] (😒..😔)    unamused face..pensive face",
text! "1F615         ; Extended_Pictographic# E1.0   [1] (😕)       confused face",
text! "1F616         ; Extended_Pictographic# E0.6   [1] (😖)       confounded face",
text! "1F617         ; Extended_Pictographic# E1.0   [1] (😗)       kissing face",
text! "1F618         ; Extended_Pictographic# E0.6   [1] (😘)       face blowing a kiss",
text! "1F619         ; Extended_Pictographic# E1.0   [1] (😙)       kissing face with smiling eyes",
text! "1F61A         ; Extended_Pictographic# E0.6   [1] (😚)       kissing face with closed eyes",
text! "1F61B         ; Extended_Pictographic# E1.0   [1] (😛)       face with tongue",
text! "1F61C..1F61E  ; Extended_Pictographic# E0.6   [3] (😜..😞)    winking face with tongue..disappointed face",
text! "1F61F         ; Extended_Pictographic# E1.0   [1] (😟)       worried face",
text! "1F620..1F625  ; Extended_Pictographic# E0.6   [6] (😠..😥)    angry face..sad but relieved face",
text! "1F626..1F627  ; Extended_Pictographic# E1.0   [2] (😦..😧)    frowning face with open mouth..anguished face",
text! "1F628..1F62B  ; Extended_Pictographic# E0.6   [4] (😨..😫)    fearful face..tired face",
text! "1F62C         ; Extended_Pictographic# E1.0   [1] (😬)       grimacing face",
text! "1F62D         ; Extended_Pictographic# E0.6   [1] (😭)       loudly crying face",
text! "1F62E..1F62F  ; Extended_Pictographic# E1.0   [2] (😮..😯)    face with open mouth..hushed face",
text! "1F630..1F633  ; Extended_Pictographic# E0.6   [4] (😰..😳)    anxious face with sweat..flushed face",
text! "1F634         ; Extended_Pictographic# E1.0   [1] (😴)       sleeping face",
text! "1F635         ; Extended_Pictographic# E0.6   [1] (😵)       face with crossed-out eyes",
text! "1F636         ; Extended_Pictographic# E1.0   [1] (😶)       face without mouth",
text! "1F637..1F640  ; Extended_Pictographic# E0.6  [10] (😷..🙀)    face with medical mask..weary cat",
text! "1F641..1F644  ; Extended_Pictographic# E1.0   [4] (🙁..🙄)    slightly frowning face..face with rolling eyes",
text! "1F645..1F64F  ; Extended_Pictographic# E0.6  [11] (🙅..🙏)    person gesturing NO..folded hands",
text! "1F680         ; Extended_Pictographic# E0.6   [1] (🚀)       rocket",
text! "1F681..1F682  ; Extended_Pictographic# E1.0   [2] (🚁..🚂)    helicopter..locomotive",
text! "1F683..1F685  ; Extended_Pictographic# E0.6   [3] (🚃..🚅)    railway car..bullet train",
text! "1F686         ; Extended_Pictographic# E1.0   [1] (🚆)       train",
text! "1F687         ; Extended_Pictographic# E0.6   [1] (🚇)       metro",
text! "1F688         ; Extended_Pictographic# E1.0   [1] (🚈)       light rail",
text! "1F689         ; Extended_Pictographic# E0.6   [1] (🚉)       station",
text! "1F68A..1F68B  ; Extended_Pictographic# E1.0   [2] (🚊..🚋)    tram..tram car",
text! "1F68C         ; Extended_Pictographic# E0.6   [1] (🚌)       bus",
text! "1F68D         ; Extended_Pictographic# E0.7   [1] (🚍)       oncoming bus",
text! "1F68E         ; Extended_Pictographic# E1.0   [1] (🚎)       trolleybus",
text! "1F68F         ; Extended_Pictographic# E0.6   [1] (🚏)       bus stop",
text! "1F690         ; Extended_Pictographic# E1.0   [1] (🚐)       minibus",
text! "1F691..1F693  ; Extended_Pictographic# E0.6   [3] (🚑..🚓)    ambulance..police car",
text! "1F694         ; Extended_Pictographic# E0.7   [1] (🚔)       oncoming police car",
text! "1F695         ; Extended_Pictographic# E0.6   [1] (🚕)       taxi",
text! "1F696         ; Extended_Pictographic# E1.0   [1] (🚖)       oncoming taxi",
text! "1F697         ; Extended_Pictographic# E0.6   [1] (🚗)       automobile",
text! "1F698         ; Extended_Pictographic# E0.7   [1] (🚘)       oncoming automobile",
text! "1F699..1F69A  ; Extended_Pictographic# E0.6   [2] (🚙..🚚)    sport utility vehicle..delivery truck",
text! "1F69B..1F6A1  ; Extended_Pictographic# E1.0   [7] (🚛..🚡)    articulated lorry..aerial tramway",
text! "1F6A2         ; Extended_Pictographic# E0.6   [1] (🚢)       ship",
text! "1F6A3         ; Extended_Pictographic# E1.0   [1] (🚣)       person rowing boat",
text! "1F6A4..1F6A5  ; Extended_Pictographic# E0.6   [2] (🚤..🚥)    speedboat..horizontal traffic light",
text! "1F6A6         ; Extended_Pictographic# E1.0   [1] (🚦)       vertical traffic light",
text! "1F6A7..1F6AD  ; Extended_Pictographic# E0.6   [7] (🚧..🚭)    construction..no smoking",
text! "1F6AE..1F6B1  ; Extended_Pictographic# E1.0   [4] (🚮..🚱)    litter in bin sign..non-potable water",
text! "1F6B2         ; Extended_Pictographic# E0.6   [1] (🚲)       bicycle",
text! "1F6B3..1F6B5  ; Extended_Pictographic# E1.0   [3] (🚳..🚵)    no bicycles..person mountain biking",
text! "1F6B6         ; Extended_Pictographic# E0.6   [1] (🚶)       person walking",
text! "1F6B7..1F6B8  ; Extended_Pictographic# E1.0   [2] (🚷..🚸)    no pedestrians..children crossing",
text! "1F6B9..1F6BE  ; Extended_Pictographic# E0.6   [6] (🚹..🚾)    men’s room..water closet",
text! "1F6BF         ; Extended_Pictographic# E1.0   [1] (🚿)       shower"]

/-- lines 1153-1216 -/
def emojiData18 : List Nat := [
text! "1F6C0         ; Extended_Pictographic# E0.6   [1] (🛀)       person taking bath",
text! "1F6C1..1F6C5  ; Extended_Pictographic# E1.0   [5] (🛁..🛅)    bathtub..left luggage",
text! "1F6CB         ; Extended_Pictographic# E0.7   [1] (🛋️)       couch and lamp",
text! "1F6CC         ; Extended_Pictographic# E1.0   [1] (🛌)       person in bed",
text! "1F6CD..1F6CF  ; Extended_Pictographic# E0.7   [3] (🛍️..🛏️)    shopping bags..bed",
text! "1F6D0         ; Extended_Pictographic# E1.0   [1] (🛐)       place of worship",
text! "1F6D1..1F6D2  ; Extended_Pictographic# E3.0   [2] (🛑..🛒)    stop sign..shopping cart",
text! "1F6D5         ; Extended_Pictographic# E12.0  [1] (🛕)       hindu temple",
text! "1F6D6..1F6D7  ; Extended_Pictographic# E13.0  [2] (🛖..🛗)    hut..elevator",
text! "1F6D8         ; Extended_Pictographic# E17.0  [1] (🛘)       landslide",
text! "1F6D9..1F6DB  ; Extended_Pictographic# E0.0   [3] (🛙..🛛)    <reserved-1F6D9>..<reserved-1F6DB>",
text! "1F6DC         ; Extended_Pictographic# E15.0  [1] (🛜)       wireless",
text! "1F6DD..1F6DF  ; Extended_Pictographic# E14.0  [3] (🛝..🛟)    playground slide..ring buoy",
text! "1F6E0..1F6E5  ; Extended_Pictographic# E0.7   [6] (🛠️..🛥️)    hammer and wrench..motor boat",
text! "1F6E9         ; Extended_Pictographic# E0.7   [1] (🛩️)       small airplane",
text! "1F6EB..1F6EC  ; Extended_Pictographic# E1.0   [2] (🛫..🛬)    airplane departure..airplane arrival",
text! "1F6ED..1F6EF  ; Extended_Pictographic# E0.0   [3] (🛭..🛯)    <reserved-1F6ED>..<reserved-1F6EF>",
text! "1F6F0         ; Extended_Pictographic# E0.7   [1] (🛰️)       satellite",
text! "1F6F3         ; Extended_Pictographic# E0.7   [1] (🛳️)       passenger ship",
text! "1F6F4..1F6F6  ; Extended_Pictographic# E3.0   [3] (🛴..🛶)    kick scooter..canoe",
text! "1F6F7..1F6F8  ; Extended_Pictographic# E5.0   [2] (🛷..🛸)    sled..flying saucer",
text! "1F6F9         ; Extended_Pictographic# E11.0  [1] (🛹)       skateboard",
text! "1F6FA         ; Extended_Pictographic# E12.0  [1] (🛺)       auto rickshaw",
text! "1F6FB..1F6FC  ; Extended_Pictographic# E13.0  [2] (🛻..🛼)    pickup truck..roller skate",
text! "1F6FD..1F6FF  ; Extended_Pictographic# E0.0   [3] (🛽..🛿)    <reserved-1F6FD>..<reserved-1F6FF>",
text! "1F7DA..1F7DF  ; Extended_Pictographic# E0.0   [6] (🟚..🟟)    <reserved-1F7DA>..<reserved-1F7DF>",
text! "1F7E0..1F7EB  ; Extended_Pictographic# E12.0 [12] (🟠..🟫)    orange circle..brown square",
text! "1F7EC..1F7EF  ; Extended_Pictographic# E0.0   [4] (🟬..🟯)    <reserved-1F7EC>..<reserved-1F7EF>",
text! "1F7F0         ; Extended_Pictographic# E14.0  [1] (🟰)       heavy equals sign",
text! "1F7F1..1F7FF  ; Extended_Pictographic# E0.0  [15] (🟱..🟿)    <reserved-1F7F1>..<reserved-1F7FF>",
text! "1F80C..1F80F  ; Extended_Pictographic# E0.0   [4] (🠌..🠏)    <reserved-1F80C>..<reserved-1F80F>",
text! "1F848..1F84F  ; Extended_Pictographic# E0.0   [8] (🡈..🡏)    <reserved-1F848>..<reserved-1F84F>",
text! "1F85A..1F85F  ; Extended_Pictographic# E0.0   [6] (🡚..🡟)    <reserved-1F85A>..<reserved-1F85F>",
text! "1F888..1F88F  ; Extended_Pictographic# E0.0   [8] (🢈..🢏)    <reserved-1F888>..<reserved-1F88F>",
text! "1F8AE..1F8AF  ; Extended_Pictographic# E0.0   [2] (🢮..🢯)    <reserved-1F8AE>..<reserved-1F8AF>",
text! "1F8BC..1F8BF  ; Extended_Pictographic# E0.0   [4] (🢼..🢿)    <reserved-1F8BC>..<reserved-1F8BF>",
text! "1F8C2..1F8CF  ; Extended_Pictographic# E0.0  [14] (🣂..🣏)    <reserved-1F8C2>..<reserved-1F8CF>",
text! "1F8D9..1F8FF  ; Extended_Pictographic# E0.0  [39] (🣙..🣿)    <reserved-1F8D9>..<reserved-1F8FF>",
text! "1F90C         ; Extended_Pictographic# E13.0  [1] (🤌)       pinched fingers",
text! "1F90D..1F90F  ; Extended_Pictographic# E12.0  [3] (🤍..🤏)    white heart..pinching hand",
text! "1F910..1F918  ; Extended_Pictographic# E1.0   [9] (🤐..🤘)    zipper-mouth face..sign of the horns",
text! "1F919..1F91E  ; Extended_Pictographic# E3.0   [6] (🤙..🤞)    call me hand..crossed fingers",
text! "1F91F         ; Extended_Pictographic# E5.0   [1] (🤟)       love-you gesture",
text! "1F920..1F927  ; Extended_Pictographic# E3.0   [8] (🤠..🤧)    cowboy hat face..sneezing face",
text! "1F928..1F92F  ; Extended_Pictographic# E5.0   [8] (🤨..🤯)    face with raised eyebrow..exploding head",
text! "1F930         ; Extended_Pictographic# E3.0   [1] (🤰)       pregnant woman",
text! "1F931..1F932  ; Extended_Pictographic# E5.0   [2] (🤱..🤲)    breast-feeding..palms up together",
text! "1F933..1F93A  ; Extended_Pictographic# E3.0   [8] (🤳..🤺)    selfie..person fencing",
text! "1F93C..1F93E  ; Extended_Pictographic# E3.0   [3] (🤼..🤾)    people wrestling..person playing handball",
text! "1F93F         ; Extended_Pictographic# E12.0  [1] (🤿)       diving mask",
text! "1F940..1F945  ; Extended_Pictographic# E3.0   [6] (🥀..🥅)    wilted flower..goal net",
text! "1F947..1F94B  ; Extended_Pictographic# E3.0   [5] (🥇..🥋)    1st place medal..martial arts uniform",
text! "1F94C         ; Extended_Pictographic# E5.0   [1] (🥌)       curling stone",
text! "1F94D..1F94F  ; Extended_Pictographic# E11.0  [3] (🥍..🥏)    lacrosse..flying disc",
text! "1F950..1F95E  ; Extended_Pictographic# E3.0  [15] (🥐..🥞)    croissant..pancakes",
text! "1F95F..1F96B  ; Extended_Pictographic# E5.0  [13] (🥟..🥫)    dumpling..canned food",
text! "1F96C..1F970  ; Extended_Pictographic# E11.0  [5] (🥬..🥰)    leafy green..smiling face with hearts",
text! "1F971         ; Extended_Pictographic# E12.0  [1] (🥱)       yawning face",
text! "1F972         ; Extended_Pictographic# E13.0  [1] (🥲)       smiling face with tear",
text! "1F973..1F976  ; Extended_Pictographic# E11.0  [4] (🥳..🥶)    partying face..cold face",
text! "1F977..1F978  ; Extended_Pictographic# E13.0  [2] (🥷..🥸)    ninja..disguised face",
text! "1F979         ; Extended_Pictographic# E14.0  [1] (🥹)       face holding back tears",
text! "1F97A         ; Extended_Pictographic# E11.0  [1] (🥺)       pleading face",
text! "1F97B         ; Extended_Pictographic# E12.0  [1] (🥻)       sari"]

/-- lines 1217-1280 -/
def emojiData19 : List Nat := [
text! "1F97C..1F97F  ; Extended_Pictographic# E11.0  [4] (🥼..🥿)    lab coat..flat shoe",
text! "1F980..1F984  ; Extended_Pictographic# E1.0   [5] (🦀..🦄)    crab..unicorn",
text! "1F985..1F991  ; Extended_Pictographic# E3.0  [13] (🦅..🦑)    eagle..squid",
text! "1F992..1F997  ; Extended_Pictographic# E5.0   [6] (🦒..🦗)    giraffe..cricket",
text! "1F998..1F9A2  ; Extended_Pictographic# E11.0 [11] (🦘..🦢)    kangaroo..swan",
text! "1F9A3..1F9A4  ; Extended_Pictographic# E13.0  [2] (🦣..🦤)    mammoth..dodo",
text! "1F9A5..1F9AA  ; Extended_Pictographic# E12.0  [6] (🦥..🦪)    sloth..oyster",
text! "1F9AB..1F9AD  ; Extended_Pictographic# E13.0  [3] (🦫..🦭)    beaver..seal",
text! "1F9AE..1F9AF  ; Extended_Pictographic# E12.0  [2] (🦮..🦯)    guide dog..white cane",
text! "1F9B0..1F9B9  ; Extended_Pictographic# E11.0 [10] (🦰..🦹)    red hair..supervillain",
text! "1F9BA..1F9BF  ; Extended_Pictographic# E12.0  [6] (🦺..🦿)    safety vest..mechanical leg",
text! "1F9C0         ; Extended_Pictographic# E1.0   [1] (🧀)       cheese wedge",
text! "1F9C1..1F9C2  ; Extended_Pictographic# E11.0  [2] (🧁..🧂)    cupcake..salt",
text! "1F9C3..1F9CA  ; Extended_Pictographic# E12.0  [8] (🧃..🧊)    beverage box..ice",
text! "1F9CB         ; Extended_Pictographic# E13.0  [1] (🧋)       bubble tea",
text! "1F9CC         ; Extended_Pictographic# E14.0  [1] (🧌)       troll",
text! "1F9CD..1F9CF  ; Extended_Pictographic# E12.0  [3] (🧍..🧏)    person standing..deaf person",
text! "1F9D0..1F9E6  ; Extended_Pictographic# E5.0  [23] (🧐..🧦)    face with monocle..socks",
text! "1F9E7..1F9FF  ; Extended_Pictographic# E11.0 [25] (🧧..🧿)    red envelope..nazar amulet",
text! "1FA58..1FA5F  ; Extended_Pictographic# E0.0   [8] (🩘..🩟)    <reserved-1FA58>..<reserved-1FA5F>",
text! "1FA6E..1FA6F  ; Extended_Pictographic# E0.0   [2] (🩮..🩯)    <reserved-1FA6E>..<reserved-1FA6F>",
text! "1FA70..1FA73  ; Extended_Pictographic# E12.0  [4] (🩰..🩳)    ballet shoes..shorts",
text! "1FA74         ; Extended_Pictographic# E13.0  [1] (🩴)       thong sandal",
text! "1FA75..1FA77  ; Extended_Pictographic# E15.0  [3] (🩵..🩷)    light blue heart..pink heart",
text! "1FA78..1FA7A  ; Extended_Pictographic# E12.0  [3] (🩸..🩺)    drop of blood..stethoscope",
text! "1FA7B..1FA7C  ; Extended_Pictographic# E14.0  [2] (🩻..🩼)    x-ray..crutch",
text! "1FA7D..1FA7F  ; Extended_Pictographic# E0.0   [3] (🩽..🩿)    <reserved-1FA7D>..<reserved-1FA7F>",
text! "1FA80..1FA82  ; Extended_Pictographic# E12.0  [3] (🪀..🪂)    yo-yo..parachute",
text! "1FA83..1FA86  ; Extended_Pictographic# E13.0  [4] (🪃..🪆)    boomerang..nesting dolls",
text! "1FA87..1FA88  ; Extended_Pictographic# E15.0  [2] (🪇..🪈)    maracas..flute",
text! "1FA89         ; Extended_Pictographic# E16.0  [1] (🪉)       harp",
text! "1FA8A         ; Extended_Pictographic# E17.0  [1] (🪊)       trombone",
text! "1FA8B..1FA8D  ; Extended_Pictographic# E0.0   [3] (🪋..🪍)    <reserved-1FA8B>..<reserved-1FA8D>",
text! "1FA8E         ; Extended_Pictographic# E17.0  [1] (🪎)       treasure chest",
text! "1FA8F         ; Extended_Pictographic# E16.0  [1] (🪏)       shovel",
text! "1FA90..1FA95  ; Extended_Pictographic# E12.0  [6] (🪐..🪕)    ringed planet..banjo",
text! "1FA96..1FAA8  ; Extended_Pictographic# E13.0 [19] (🪖..🪨)    military helmet..rock",
text! "1FAA9..1FAAC  ; Extended_Pictographic# E14.0  [4] (🪩..🪬)    mirror ball..hamsa",
text! "1FAAD..1FAAF  ; Extended_Pictographic# E15.0  [3] (🪭..🪯)    folding hand fan..khanda",
text! "1FAB0..1FAB6  ; Extended_Pictographic# E13.0  [7] (🪰..🪶)    fly..feather",
text! "1FAB7..1FABA  ; Extended_Pictographic# E14.0  [4] (🪷..🪺)    lotus..nest with eggs",
text! "1FABB..1FABD  ; Extended_Pictographic# E15.0  [3] (🪻..🪽)    hyacinth..wing",
text! "1FABE         ; Extended_Pictographic# E16.0  [1] (🪾)       leafless tree",
text! "1FABF         ; Extended_Pictographic# E15.0  [1] (🪿)       goose",
text! "1FAC0..1FAC2  ; Extended_Pictographic# E13.0  [3] (🫀..🫂)    anatomical heart..people hugging",
text! "1FAC3..1FAC5  ; Extended_Pictographic# E14.0  [3] (🫃..🫅)    pregnant man..person with crown",
text! "1FAC6         ; Extended_Pictographic# E16.0  [1] (🫆)       fingerprint",
text! "1FAC7         ; Extended_Pictographic# E0.0   [1] (🫇)       <reserved-1FAC7>",
text! "1FAC8         ; Extended_Pictographic# E17.0  [1] (🫈)       hairy creature",
text! "1FAC9..1FACC  ; Extended_Pictographic# E0.0   [4] (🫉..🫌)    <reserved-1FAC9>..<reserved-1FACC>",
text! "1FACD         ; Extended_Pictographic# E17.0  [1] (🫍)       orca",
text! "1FACE..1FACF  ; Extended_Pictographic# E15.0  [2] (🫎..🫏)    moose..donkey",
text! "1FAD0..1FAD6  ; Extended_Pictographic# E13.0  [7] (🫐..🫖)    blueberries..teapot",
text! "1FAD7..1FAD9  ; Extended_Pictographic# E14.0  [3] (🫗..🫙)    pouring liquid..jar",
text! "1FADA..1FADB  ; Extended_Pictographic# E15.0  [2] (🫚..🫛)    ginger root..pea pod",
text! "1FADC         ; Extended_Pictographic# E16.0  [1] (🫜)       root vegetable",
text! "1FADD..1FADE  ; Extended_Pictographic# E0.0   [2] (🫝..🫞)    <reserved-1FADD>..<reserved-1FADE>",
text! "1FADF         ; Extended_Pictographic# E16.0  [1] (🫟)       splatter",
text! "1FAE0..1FAE7  ; Extended_Pictographic# E14.0  [8] (🫠..🫧)    melting face..bubbles",
text! "1FAE8         ; Extended_Pictographic# E15.0  [1] (🫨)       shaking face",
text! "1FAE9         ; Extended_Pictographic# E16.0  [1] (🫩)       face with bags under eyes",
text! "1FAEA         ; Extended_Pictographic# E17.0  [1] (🫪)       distorted face",
text! "1FAEB..1FAEE  ; Extended_Pictographic# E0.0   [4] (🫫..🫮)    <reserved-1FAEB>..<reserved-1FAEE>",
text! "1FAEF         ; Extended_Pictographic# E17.0  [1] (🫯)       fight cloud"]

/-- lines 1281-1288 -/
def emojiData20 : List Nat := [
text! "1FAF0..1FAF6  ; Extended_Pictographic# E14.0  [7] (🫰..🫶)    hand with index finger and thumb crossed..heart hands",
text! "1FAF7..1FAF8  ; Extended_Pictographic# E15.0  [2] (🫷..🫸)    leftwards pushing hand..rightwards pushing hand",
text! "1FAF9..1FAFF  ; Extended_Pictographic# E0.0   [7] (🫹..🫿)    <reserved-1FAF9>..<reserved-1FAFF>",
text! "1FC00..1FFFD  ; Extended_Pictographic# E0.0[1022] (🰀..🿽)    <reserved-1FC00>..<reserved-1FFFD>",
text! "",
text! "# Total elements: 2848",
text! "",
text! "#EOF"]

/-- The lines of the file, in parts of 64 lines. -/
def emojiData : List (List Nat) := [emojiData0, emojiData1, emojiData2, emojiData3, emojiData4, emojiData5, emojiData6, emojiData7, emojiData8, emojiData9, emojiData10, emojiData11, emojiData12, emojiData13, emojiData14, emojiData15, emojiData16, emojiData17, emojiData18, emojiData19, emojiData20]

end Textseg.Text
