#!/usr/bin/env python3
"""Transcribes the entries for Emoji, Emoji_Modifier_Base and Emoji_Modifier of emoji-data.txt into
lean/Verif/Spec/EmojiData.lean (in file order)."""
out=['/-!','# Specification data: entries of the shipped emoji-data.txt','',
'Generated by tools/gen_emoji.py: one triple (first, last, property) per data line for the three properties, in file order. That',
'these are the entries of the file is proved (`C56_data_file`).','-/','','namespace Textseg.Spec','',
'inductive EmojiProperty where','  | Emoji | ModifierBase | Modifier','deriving DecidableEq','']
m={'Emoji':'.Emoji','Emoji_Modifier_Base':'.ModifierBase','Emoji_Modifier':'.Modifier'}
items=[]
for l in open('/repo/textseg/internal/charprops/ucd/emoji/emoji-data.txt',encoding='utf8'):
    l=l.split('#')[0]
    if ';' not in l: continue
    r,f=l.split(';'); a=r.strip().split('..')
    if f.strip() in m: items.append((int(a[0],16),int(a[-1],16),m[f.strip()]))
ch=[items[i:i+150] for i in range(0,len(items),150)]
for k,c in enumerate(ch):
    out.append('def emojiEntries_%d : List (Nat × Nat × EmojiProperty) := ['%k)
    out+=['  (0x%04X, 0x%04X, %s)%s'%(s,e,v,',' if i<len(c)-1 else ']') for i,(s,e,v) in enumerate(c)]
out.append('/-- The data lines for the three properties (%d lines). -/'%len(items))
out.append('def emojiEntries : List (Nat × Nat × EmojiProperty) :=')
out.append('  '+' ++ '.join('emojiEntries_%d'%k for k in range(len(ch))))
out+=['','end Textseg.Spec','']
open('/verif/lean/Verif/Spec/EmojiData.lean','w').write('\n'.join(out))
print(len(items))
