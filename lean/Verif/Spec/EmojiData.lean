/-!
# Specification data: entries of the shipped emoji-data.txt

Generated by tools/gen_emoji.py: one triple (first, last, property) per data line for the three properties, in file order. That
these are the entries of the file is proved (`C56_data_file`).
-/

namespace Textseg.Spec

inductive EmojiProperty where
  | Emoji | ModifierBase | Modifier
deriving DecidableEq

def emojiEntries_0 : List (Nat × Nat × EmojiProperty) := [
  (0x0023, 0x0023, .Emoji),
  (0x002A, 0x002A, .Emoji),
  (0x0030, 0x0039, .Emoji),
  (0x00A9, 0x00A9, .Emoji),
  (0x00AE, 0x00AE, .Emoji),
  (0x203C, 0x203C, .Emoji),
  (0x2049, 0x2049, .Emoji),
  (0x2122, 0x2122, .Emoji),
  (0x2139, 0x2139, .Emoji),
  (0x2194, 0x2199, .Emoji),
  (0x21A9, 0x21AA, .Emoji),
  (0x231A, 0x231B, .Emoji),
  (0x2328, 0x2328, .Emoji),
  (0x23CF, 0x23CF, .Emoji),
  (0x23E9, 0x23EC, .Emoji),
  (0x23ED, 0x23EE, .Emoji),
  (0x23EF, 0x23EF, .Emoji),
  (0x23F0, 0x23F0, .Emoji),
  (0x23F1, 0x23F2, .Emoji),
  (0x23F3, 0x23F3, .Emoji),
  (0x23F8, 0x23FA, .Emoji),
  (0x24C2, 0x24C2, .Emoji),
  (0x25AA, 0x25AB, .Emoji),
  (0x25B6, 0x25B6, .Emoji),
  (0x25C0, 0x25C0, .Emoji),
  (0x25FB, 0x25FE, .Emoji),
  (0x2600, 0x2601, .Emoji),
  (0x2602, 0x2603, .Emoji),
  (0x2604, 0x2604, .Emoji),
  (0x260E, 0x260E, .Emoji),
  (0x2611, 0x2611, .Emoji),
  (0x2614, 0x2615, .Emoji),
  (0x2618, 0x2618, .Emoji),
  (0x261D, 0x261D, .Emoji),
  (0x2620, 0x2620, .Emoji),
  (0x2622, 0x2623, .Emoji),
  (0x2626, 0x2626, .Emoji),
  (0x262A, 0x262A, .Emoji),
  (0x262E, 0x262E, .Emoji),
  (0x262F, 0x262F, .Emoji),
  (0x2638, 0x2639, .Emoji),
  (0x263A, 0x263A, .Emoji),
  (0x2640, 0x2640, .Emoji),
  (0x2642, 0x2642, .Emoji),
  (0x2648, 0x2653, .Emoji),
  (0x265F, 0x265F, .Emoji),
  (0x2660, 0x2660, .Emoji),
  (0x2663, 0x2663, .Emoji),
  (0x2665, 0x2666, .Emoji),
  (0x2668, 0x2668, .Emoji),
  (0x267B, 0x267B, .Emoji),
  (0x267E, 0x267E, .Emoji),
  (0x267F, 0x267F, .Emoji),
  (0x2692, 0x2692, .Emoji),
  (0x2693, 0x2693, .Emoji),
  (0x2694, 0x2694, .Emoji),
  (0x2695, 0x2695, .Emoji),
  (0x2696, 0x2697, .Emoji),
  (0x2699, 0x2699, .Emoji),
  (0x269B, 0x269C, .Emoji),
  (0x26A0, 0x26A1, .Emoji),
  (0x26A7, 0x26A7, .Emoji),
  (0x26AA, 0x26AB, .Emoji),
  (0x26B0, 0x26B1, .Emoji),
  (0x26BD, 0x26BE, .Emoji),
  (0x26C4, 0x26C5, .Emoji),
  (0x26C8, 0x26C8, .Emoji),
  (0x26CE, 0x26CE, .Emoji),
  (0x26CF, 0x26CF, .Emoji),
  (0x26D1, 0x26D1, .Emoji),
  (0x26D3, 0x26D3, .Emoji),
  (0x26D4, 0x26D4, .Emoji),
  (0x26E9, 0x26E9, .Emoji),
  (0x26EA, 0x26EA, .Emoji),
  (0x26F0, 0x26F1, .Emoji),
  (0x26F2, 0x26F3, .Emoji),
  (0x26F4, 0x26F4, .Emoji),
  (0x26F5, 0x26F5, .Emoji),
  (0x26F7, 0x26F9, .Emoji),
  (0x26FA, 0x26FA, .Emoji),
  (0x26FD, 0x26FD, .Emoji),
  (0x2702, 0x2702, .Emoji),
  (0x2705, 0x2705, .Emoji),
  (0x2708, 0x270C, .Emoji),
  (0x270D, 0x270D, .Emoji),
  (0x270F, 0x270F, .Emoji),
  (0x2712, 0x2712, .Emoji),
  (0x2714, 0x2714, .Emoji),
  (0x2716, 0x2716, .Emoji),
  (0x271D, 0x271D, .Emoji),
  (0x2721, 0x2721, .Emoji),
  (0x2728, 0x2728, .Emoji),
  (0x2733, 0x2734, .Emoji),
  (0x2744, 0x2744, .Emoji),
  (0x2747, 0x2747, .Emoji),
  (0x274C, 0x274C, .Emoji),
  (0x274E, 0x274E, .Emoji),
  (0x2753, 0x2755, .Emoji),
  (0x2757, 0x2757, .Emoji),
  (0x2763, 0x2763, .Emoji),
  (0x2764, 0x2764, .Emoji),
  (0x2795, 0x2797, .Emoji),
  (0x27A1, 0x27A1, .Emoji),
  (0x27B0, 0x27B0, .Emoji),
  (0x27BF, 0x27BF, .Emoji),
  (0x2934, 0x2935, .Emoji),
  (0x2B05, 0x2B07, .Emoji),
  (0x2B1B, 0x2B1C, .Emoji),
  (0x2B50, 0x2B50, .Emoji),
  (0x2B55, 0x2B55, .Emoji),
  (0x3030, 0x3030, .Emoji),
  (0x303D, 0x303D, .Emoji),
  (0x3297, 0x3297, .Emoji),
  (0x3299, 0x3299, .Emoji),
  (0x1F004, 0x1F004, .Emoji),
  (0x1F0CF, 0x1F0CF, .Emoji),
  (0x1F170, 0x1F171, .Emoji),
  (0x1F17E, 0x1F17F, .Emoji),
  (0x1F18E, 0x1F18E, .Emoji),
  (0x1F191, 0x1F19A, .Emoji),
  (0x1F1E6, 0x1F1FF, .Emoji),
  (0x1F201, 0x1F202, .Emoji),
  (0x1F21A, 0x1F21A, .Emoji),
  (0x1F22F, 0x1F22F, .Emoji),
  (0x1F232, 0x1F23A, .Emoji),
  (0x1F250, 0x1F251, .Emoji),
  (0x1F300, 0x1F30C, .Emoji),
  (0x1F30D, 0x1F30E, .Emoji),
  (0x1F30F, 0x1F30F, .Emoji),
  (0x1F310, 0x1F310, .Emoji),
  (0x1F311, 0x1F311, .Emoji),
  (0x1F312, 0x1F312, .Emoji),
  (0x1F313, 0x1F315, .Emoji),
  (0x1F316, 0x1F318, .Emoji),
  (0x1F319, 0x1F319, .Emoji),
  (0x1F31A, 0x1F31A, .Emoji),
  (0x1F31B, 0x1F31B, .Emoji),
  (0x1F31C, 0x1F31C, .Emoji),
  (0x1F31D, 0x1F31E, .Emoji),
  (0x1F31F, 0x1F320, .Emoji),
  (0x1F321, 0x1F321, .Emoji),
  (0x1F324, 0x1F32C, .Emoji),
  (0x1F32D, 0x1F32F, .Emoji),
  (0x1F330, 0x1F331, .Emoji),
  (0x1F332, 0x1F333, .Emoji),
  (0x1F334, 0x1F335, .Emoji),
  (0x1F336, 0x1F336, .Emoji),
  (0x1F337, 0x1F34A, .Emoji),
  (0x1F34B, 0x1F34B, .Emoji),
  (0x1F34C, 0x1F34F, .Emoji)]
def emojiEntries_1 : List (Nat × Nat × EmojiProperty) := [
  (0x1F350, 0x1F350, .Emoji),
  (0x1F351, 0x1F37B, .Emoji),
  (0x1F37C, 0x1F37C, .Emoji),
  (0x1F37D, 0x1F37D, .Emoji),
  (0x1F37E, 0x1F37F, .Emoji),
  (0x1F380, 0x1F393, .Emoji),
  (0x1F396, 0x1F397, .Emoji),
  (0x1F399, 0x1F39B, .Emoji),
  (0x1F39E, 0x1F39F, .Emoji),
  (0x1F3A0, 0x1F3C4, .Emoji),
  (0x1F3C5, 0x1F3C5, .Emoji),
  (0x1F3C6, 0x1F3C6, .Emoji),
  (0x1F3C7, 0x1F3C7, .Emoji),
  (0x1F3C8, 0x1F3C8, .Emoji),
  (0x1F3C9, 0x1F3C9, .Emoji),
  (0x1F3CA, 0x1F3CA, .Emoji),
  (0x1F3CB, 0x1F3CE, .Emoji),
  (0x1F3CF, 0x1F3D3, .Emoji),
  (0x1F3D4, 0x1F3DF, .Emoji),
  (0x1F3E0, 0x1F3E3, .Emoji),
  (0x1F3E4, 0x1F3E4, .Emoji),
  (0x1F3E5, 0x1F3F0, .Emoji),
  (0x1F3F3, 0x1F3F3, .Emoji),
  (0x1F3F4, 0x1F3F4, .Emoji),
  (0x1F3F5, 0x1F3F5, .Emoji),
  (0x1F3F7, 0x1F3F7, .Emoji),
  (0x1F3F8, 0x1F407, .Emoji),
  (0x1F408, 0x1F408, .Emoji),
  (0x1F409, 0x1F40B, .Emoji),
  (0x1F40C, 0x1F40E, .Emoji),
  (0x1F40F, 0x1F410, .Emoji),
  (0x1F411, 0x1F412, .Emoji),
  (0x1F413, 0x1F413, .Emoji),
  (0x1F414, 0x1F414, .Emoji),
  (0x1F415, 0x1F415, .Emoji),
  (0x1F416, 0x1F416, .Emoji),
  (0x1F417, 0x1F429, .Emoji),
  (0x1F42A, 0x1F42A, .Emoji),
  (0x1F42B, 0x1F43E, .Emoji),
  (0x1F43F, 0x1F43F, .Emoji),
  (0x1F440, 0x1F440, .Emoji),
  (0x1F441, 0x1F441, .Emoji),
  (0x1F442, 0x1F464, .Emoji),
  (0x1F465, 0x1F465, .Emoji),
  (0x1F466, 0x1F46B, .Emoji),
  (0x1F46C, 0x1F46D, .Emoji),
  (0x1F46E, 0x1F4AC, .Emoji),
  (0x1F4AD, 0x1F4AD, .Emoji),
  (0x1F4AE, 0x1F4B5, .Emoji),
  (0x1F4B6, 0x1F4B7, .Emoji),
  (0x1F4B8, 0x1F4EB, .Emoji),
  (0x1F4EC, 0x1F4ED, .Emoji),
  (0x1F4EE, 0x1F4EE, .Emoji),
  (0x1F4EF, 0x1F4EF, .Emoji),
  (0x1F4F0, 0x1F4F4, .Emoji),
  (0x1F4F5, 0x1F4F5, .Emoji),
  (0x1F4F6, 0x1F4F7, .Emoji),
  (0x1F4F8, 0x1F4F8, .Emoji),
  (0x1F4F9, 0x1F4FC, .Emoji),
  (0x1F4FD, 0x1F4FD, .Emoji),
  (0x1F4FF, 0x1F502, .Emoji),
  (0x1F503, 0x1F503, .Emoji),
  (0x1F504, 0x1F507, .Emoji),
  (0x1F508, 0x1F508, .Emoji),
  (0x1F509, 0x1F509, .Emoji),
  (0x1F50A, 0x1F514, .Emoji),
  (0x1F515, 0x1F515, .Emoji),
  (0x1F516, 0x1F52B, .Emoji),
  (0x1F52C, 0x1F52D, .Emoji),
  (0x1F52E, 0x1F53D, .Emoji),
  (0x1F549, 0x1F54A, .Emoji),
  (0x1F54B, 0x1F54E, .Emoji),
  (0x1F550, 0x1F55B, .Emoji),
  (0x1F55C, 0x1F567, .Emoji),
  (0x1F56F, 0x1F570, .Emoji),
  (0x1F573, 0x1F579, .Emoji),
  (0x1F57A, 0x1F57A, .Emoji),
  (0x1F587, 0x1F587, .Emoji),
  (0x1F58A, 0x1F58D, .Emoji),
  (0x1F590, 0x1F590, .Emoji),
  (0x1F595, 0x1F596, .Emoji),
  (0x1F5A4, 0x1F5A4, .Emoji),
  (0x1F5A5, 0x1F5A5, .Emoji),
  (0x1F5A8, 0x1F5A8, .Emoji),
  (0x1F5B1, 0x1F5B2, .Emoji),
  (0x1F5BC, 0x1F5BC, .Emoji),
  (0x1F5C2, 0x1F5C4, .Emoji),
  (0x1F5D1, 0x1F5D3, .Emoji),
  (0x1F5DC, 0x1F5DE, .Emoji),
  (0x1F5E1, 0x1F5E1, .Emoji),
  (0x1F5E3, 0x1F5E3, .Emoji),
  (0x1F5E8, 0x1F5E8, .Emoji),
  (0x1F5EF, 0x1F5EF, .Emoji),
  (0x1F5F3, 0x1F5F3, .Emoji),
  (0x1F5FA, 0x1F5FA, .Emoji),
  (0x1F5FB, 0x1F5FF, .Emoji),
  (0x1F600, 0x1F600, .Emoji),
  (0x1F601, 0x1F606, .Emoji),
  (0x1F607, 0x1F608, .Emoji),
  (0x1F609, 0x1F60D, .Emoji),
  (0x1F60E, 0x1F60E, .Emoji),
  (0x1F60F, 0x1F60F, .Emoji),
  (0x1F610, 0x1F610, .Emoji),
  (0x1F611, 0x1F611, .Emoji),
  (0x1F612, 0x1F614, .Emoji),
  (0x1F615, 0x1F615, .Emoji),
  (0x1F616, 0x1F616, .Emoji),
  (0x1F617, 0x1F617, .Emoji),
  (0x1F618, 0x1F618, .Emoji),
  (0x1F619, 0x1F619, .Emoji),
  (0x1F61A, 0x1F61A, .Emoji),
  (0x1F61B, 0x1F61B, .Emoji),
  (0x1F61C, 0x1F61E, .Emoji),
  (0x1F61F, 0x1F61F, .Emoji),
  (0x1F620, 0x1F625, .Emoji),
  (0x1F626, 0x1F627, .Emoji),
  (0x1F628, 0x1F62B, .Emoji),
  (0x1F62C, 0x1F62C, .Emoji),
  (0x1F62D, 0x1F62D, .Emoji),
  (0x1F62E, 0x1F62F, .Emoji),
  (0x1F630, 0x1F633, .Emoji),
  (0x1F634, 0x1F634, .Emoji),
  (0x1F635, 0x1F635, .Emoji),
  (0x1F636, 0x1F636, .Emoji),
  (0x1F637, 0x1F640, .Emoji),
  (0x1F641, 0x1F644, .Emoji),
  (0x1F645, 0x1F64F, .Emoji),
  (0x1F680, 0x1F680, .Emoji),
  (0x1F681, 0x1F682, .Emoji),
  (0x1F683, 0x1F685, .Emoji),
  (0x1F686, 0x1F686, .Emoji),
  (0x1F687, 0x1F687, .Emoji),
  (0x1F688, 0x1F688, .Emoji),
  (0x1F689, 0x1F689, .Emoji),
  (0x1F68A, 0x1F68B, .Emoji),
  (0x1F68C, 0x1F68C, .Emoji),
  (0x1F68D, 0x1F68D, .Emoji),
  (0x1F68E, 0x1F68E, .Emoji),
  (0x1F68F, 0x1F68F, .Emoji),
  (0x1F690, 0x1F690, .Emoji),
  (0x1F691, 0x1F693, .Emoji),
  (0x1F694, 0x1F694, .Emoji),
  (0x1F695, 0x1F695, .Emoji),
  (0x1F696, 0x1F696, .Emoji),
  (0x1F697, 0x1F697, .Emoji),
  (0x1F698, 0x1F698, .Emoji),
  (0x1F699, 0x1F69A, .Emoji),
  (0x1F69B, 0x1F6A1, .Emoji),
  (0x1F6A2, 0x1F6A2, .Emoji),
  (0x1F6A3, 0x1F6A3, .Emoji)]
def emojiEntries_2 : List (Nat × Nat × EmojiProperty) := [
  (0x1F6A4, 0x1F6A5, .Emoji),
  (0x1F6A6, 0x1F6A6, .Emoji),
  (0x1F6A7, 0x1F6AD, .Emoji),
  (0x1F6AE, 0x1F6B1, .Emoji),
  (0x1F6B2, 0x1F6B2, .Emoji),
  (0x1F6B3, 0x1F6B5, .Emoji),
  (0x1F6B6, 0x1F6B6, .Emoji),
  (0x1F6B7, 0x1F6B8, .Emoji),
  (0x1F6B9, 0x1F6BE, .Emoji),
  (0x1F6BF, 0x1F6BF, .Emoji),
  (0x1F6C0, 0x1F6C0, .Emoji),
  (0x1F6C1, 0x1F6C5, .Emoji),
  (0x1F6CB, 0x1F6CB, .Emoji),
  (0x1F6CC, 0x1F6CC, .Emoji),
  (0x1F6CD, 0x1F6CF, .Emoji),
  (0x1F6D0, 0x1F6D0, .Emoji),
  (0x1F6D1, 0x1F6D2, .Emoji),
  (0x1F6D5, 0x1F6D5, .Emoji),
  (0x1F6D6, 0x1F6D7, .Emoji),
  (0x1F6D8, 0x1F6D8, .Emoji),
  (0x1F6DC, 0x1F6DC, .Emoji),
  (0x1F6DD, 0x1F6DF, .Emoji),
  (0x1F6E0, 0x1F6E5, .Emoji),
  (0x1F6E9, 0x1F6E9, .Emoji),
  (0x1F6EB, 0x1F6EC, .Emoji),
  (0x1F6F0, 0x1F6F0, .Emoji),
  (0x1F6F3, 0x1F6F3, .Emoji),
  (0x1F6F4, 0x1F6F6, .Emoji),
  (0x1F6F7, 0x1F6F8, .Emoji),
  (0x1F6F9, 0x1F6F9, .Emoji),
  (0x1F6FA, 0x1F6FA, .Emoji),
  (0x1F6FB, 0x1F6FC, .Emoji),
  (0x1F7E0, 0x1F7EB, .Emoji),
  (0x1F7F0, 0x1F7F0, .Emoji),
  (0x1F90C, 0x1F90C, .Emoji),
  (0x1F90D, 0x1F90F, .Emoji),
  (0x1F910, 0x1F918, .Emoji),
  (0x1F919, 0x1F91E, .Emoji),
  (0x1F91F, 0x1F91F, .Emoji),
  (0x1F920, 0x1F927, .Emoji),
  (0x1F928, 0x1F92F, .Emoji),
  (0x1F930, 0x1F930, .Emoji),
  (0x1F931, 0x1F932, .Emoji),
  (0x1F933, 0x1F93A, .Emoji),
  (0x1F93C, 0x1F93E, .Emoji),
  (0x1F93F, 0x1F93F, .Emoji),
  (0x1F940, 0x1F945, .Emoji),
  (0x1F947, 0x1F94B, .Emoji),
  (0x1F94C, 0x1F94C, .Emoji),
  (0x1F94D, 0x1F94F, .Emoji),
  (0x1F950, 0x1F95E, .Emoji),
  (0x1F95F, 0x1F96B, .Emoji),
  (0x1F96C, 0x1F970, .Emoji),
  (0x1F971, 0x1F971, .Emoji),
  (0x1F972, 0x1F972, .Emoji),
  (0x1F973, 0x1F976, .Emoji),
  (0x1F977, 0x1F978, .Emoji),
  (0x1F979, 0x1F979, .Emoji),
  (0x1F97A, 0x1F97A, .Emoji),
  (0x1F97B, 0x1F97B, .Emoji),
  (0x1F97C, 0x1F97F, .Emoji),
  (0x1F980, 0x1F984, .Emoji),
  (0x1F985, 0x1F991, .Emoji),
  (0x1F992, 0x1F997, .Emoji),
  (0x1F998, 0x1F9A2, .Emoji),
  (0x1F9A3, 0x1F9A4, .Emoji),
  (0x1F9A5, 0x1F9AA, .Emoji),
  (0x1F9AB, 0x1F9AD, .Emoji),
  (0x1F9AE, 0x1F9AF, .Emoji),
  (0x1F9B0, 0x1F9B9, .Emoji),
  (0x1F9BA, 0x1F9BF, .Emoji),
  (0x1F9C0, 0x1F9C0, .Emoji),
  (0x1F9C1, 0x1F9C2, .Emoji),
  (0x1F9C3, 0x1F9CA, .Emoji),
  (0x1F9CB, 0x1F9CB, .Emoji),
  (0x1F9CC, 0x1F9CC, .Emoji),
  (0x1F9CD, 0x1F9CF, .Emoji),
  (0x1F9D0, 0x1F9E6, .Emoji),
  (0x1F9E7, 0x1F9FF, .Emoji),
  (0x1FA70, 0x1FA73, .Emoji),
  (0x1FA74, 0x1FA74, .Emoji),
  (0x1FA75, 0x1FA77, .Emoji),
  (0x1FA78, 0x1FA7A, .Emoji),
  (0x1FA7B, 0x1FA7C, .Emoji),
  (0x1FA80, 0x1FA82, .Emoji),
  (0x1FA83, 0x1FA86, .Emoji),
  (0x1FA87, 0x1FA88, .Emoji),
  (0x1FA89, 0x1FA89, .Emoji),
  (0x1FA8A, 0x1FA8A, .Emoji),
  (0x1FA8E, 0x1FA8E, .Emoji),
  (0x1FA8F, 0x1FA8F, .Emoji),
  (0x1FA90, 0x1FA95, .Emoji),
  (0x1FA96, 0x1FAA8, .Emoji),
  (0x1FAA9, 0x1FAAC, .Emoji),
  (0x1FAAD, 0x1FAAF, .Emoji),
  (0x1FAB0, 0x1FAB6, .Emoji),
  (0x1FAB7, 0x1FABA, .Emoji),
  (0x1FABB, 0x1FABD, .Emoji),
  (0x1FABE, 0x1FABE, .Emoji),
  (0x1FABF, 0x1FABF, .Emoji),
  (0x1FAC0, 0x1FAC2, .Emoji),
  (0x1FAC3, 0x1FAC5, .Emoji),
  (0x1FAC6, 0x1FAC6, .Emoji),
  (0x1FAC8, 0x1FAC8, .Emoji),
  (0x1FACD, 0x1FACD, .Emoji),
  (0x1FACE, 0x1FACF, .Emoji),
  (0x1FAD0, 0x1FAD6, .Emoji),
  (0x1FAD7, 0x1FAD9, .Emoji),
  (0x1FADA, 0x1FADB, .Emoji),
  (0x1FADC, 0x1FADC, .Emoji),
  (0x1FADF, 0x1FADF, .Emoji),
  (0x1FAE0, 0x1FAE7, .Emoji),
  (0x1FAE8, 0x1FAE8, .Emoji),
  (0x1FAE9, 0x1FAE9, .Emoji),
  (0x1FAEA, 0x1FAEA, .Emoji),
  (0x1FAEF, 0x1FAEF, .Emoji),
  (0x1FAF0, 0x1FAF6, .Emoji),
  (0x1FAF7, 0x1FAF8, .Emoji),
  (0x1F3FB, 0x1F3FF, .Modifier),
  (0x261D, 0x261D, .ModifierBase),
  (0x26F9, 0x26F9, .ModifierBase),
  (0x270A, 0x270C, .ModifierBase),
  (0x270D, 0x270D, .ModifierBase),
  (0x1F385, 0x1F385, .ModifierBase),
  (0x1F3C2, 0x1F3C4, .ModifierBase),
  (0x1F3C7, 0x1F3C7, .ModifierBase),
  (0x1F3CA, 0x1F3CA, .ModifierBase),
  (0x1F3CB, 0x1F3CC, .ModifierBase),
  (0x1F442, 0x1F443, .ModifierBase),
  (0x1F446, 0x1F450, .ModifierBase),
  (0x1F466, 0x1F46B, .ModifierBase),
  (0x1F46C, 0x1F46D, .ModifierBase),
  (0x1F46E, 0x1F478, .ModifierBase),
  (0x1F47C, 0x1F47C, .ModifierBase),
  (0x1F481, 0x1F483, .ModifierBase),
  (0x1F485, 0x1F487, .ModifierBase),
  (0x1F48F, 0x1F48F, .ModifierBase),
  (0x1F491, 0x1F491, .ModifierBase),
  (0x1F4AA, 0x1F4AA, .ModifierBase),
  (0x1F574, 0x1F575, .ModifierBase),
  (0x1F57A, 0x1F57A, .ModifierBase),
  (0x1F590, 0x1F590, .ModifierBase),
  (0x1F595, 0x1F596, .ModifierBase),
  (0x1F645, 0x1F647, .ModifierBase),
  (0x1F64B, 0x1F64F, .ModifierBase),
  (0x1F6A3, 0x1F6A3, .ModifierBase),
  (0x1F6B4, 0x1F6B5, .ModifierBase),
  (0x1F6B6, 0x1F6B6, .ModifierBase),
  (0x1F6C0, 0x1F6C0, .ModifierBase),
  (0x1F6CC, 0x1F6CC, .ModifierBase)]
def emojiEntries_3 : List (Nat × Nat × EmojiProperty) := [
  (0x1F90C, 0x1F90C, .ModifierBase),
  (0x1F90F, 0x1F90F, .ModifierBase),
  (0x1F918, 0x1F918, .ModifierBase),
  (0x1F919, 0x1F91E, .ModifierBase),
  (0x1F91F, 0x1F91F, .ModifierBase),
  (0x1F926, 0x1F926, .ModifierBase),
  (0x1F930, 0x1F930, .ModifierBase),
  (0x1F931, 0x1F932, .ModifierBase),
  (0x1F933, 0x1F939, .ModifierBase),
  (0x1F93C, 0x1F93E, .ModifierBase),
  (0x1F977, 0x1F977, .ModifierBase),
  (0x1F9B5, 0x1F9B6, .ModifierBase),
  (0x1F9B8, 0x1F9B9, .ModifierBase),
  (0x1F9BB, 0x1F9BB, .ModifierBase),
  (0x1F9CD, 0x1F9CF, .ModifierBase),
  (0x1F9D1, 0x1F9DD, .ModifierBase),
  (0x1FAC3, 0x1FAC5, .ModifierBase),
  (0x1FAF0, 0x1FAF6, .ModifierBase),
  (0x1FAF7, 0x1FAF8, .ModifierBase)]
/-- The data lines for the three properties (469 lines). -/
def emojiEntries : List (Nat × Nat × EmojiProperty) :=
  emojiEntries_0 ++ emojiEntries_1 ++ emojiEntries_2 ++ emojiEntries_3

end Textseg.Spec
