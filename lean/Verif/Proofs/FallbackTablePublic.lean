import Verif.Proofs.Inventory

/-!
# Table for the built-in list (Public)

Generated by tools/gen_inventory.py; hints only, checked by the kernel.
-/

namespace Fasttld.Inv

noncomputable def tablePublic : Table := table! "ba 2 0
ca 3 0
la 13 0
ma 14 0
na 14 0
pa 17 0
qa 19 0
sa 19 0
ua 20 0
za 0 0
bb 2 0
lb 13 0
sb 19 0
ac 1 0
ec 4 0
lc 13 0
mc 14 0
nc 14 0
sc 19 0
vc 21 0
bd 2 1
cd 3 0
gd 4 0
id 5 0
sd 19 0
ae 1 0
be 2 0
ee 4 0
ge 4 0
ie 5 0
je 7 0
ke 13 0
me 14 0
pe 17 0
re 19 0
se 19 0
ve 21 0
ye 23 0
af 1 0
bf 2 0
nf 15 0
pf 17 0
ag 1 0
bg 2 0
eg 4 0
gg 4 0
kg 13 0
mg 14 0
ng 15 0
pg 18 1
sg 19 0
ug 20 0
vg 21 0
bh 2 0
gh 4 0
kh 13 1
ph 18 0
sh 19 0
th 20 0
ai 1 0
bi 2 0
ci 3 0
fi 4 0
gi 4 0
ki 13 0
ni 15 0
vi 21 0
bj 2 0
fj 4 0
tj 20 0
ck 3 1
fk 4 1
hk 5 0
lk 14 0
mk 14 0
pk 18 0
uk 20 0
al 1 0
cl 3 0
gl 4 0
il 5 0
ml 14 0
pl 18 0
sl 19 0
tl 20 0
am 1 0
bm 2 0
cm 3 0
dm 4 0
fm 4 0
im 5 0
jm 7 1
km 13 0
mm 14 1
om 17 0
tm 20 0
zm 23 0
bn 2 0
cn 3 0
gn 4 0
hn 5 0
in 5 0
kn 13 0
mn 14 0
pn 18 0
sn 19 0
tn 20 0
vn 21 0
ao 1 0
bo 2 0
co 3 0
do 4 0
io 5 0
jo 7 0
mo 14 0
no 15 0
ro 19 0
so 19 0
to 20 0
gp 4 0
jp 7 0
kp 13 0
np 17 1
iq 5 0
ar 1 0
br 2 0
cr 3 0
er 4 1
fr 4 0
gr 4 0
hr 5 0
ir 5 0
kr 13 0
lr 14 0
mr 14 0
nr 17 0
pr 18 0
tr 20 0
as 1 0
bs 3 0
es 4 0
ls 14 0
ms 14 0
ps 18 0
rs 19 0
ss 19 0
us 20 0
ws 22 0
at 1 0
bt 3 0
et 4 0
gt 5 0
ht 5 0
it 5 0
lt 14 0
mt 14 0
pt 19 0
st 19 0
tt 20 0
au 1 0
cu 3 0
gu 5 0
hu 5 0
mu 14 0
vu 22 0
cv 3 0
lv 14 0
mv 14 0
sv 19 0
aw 1 0
bw 3 0
cw 3 0
kw 13 0
mw 14 0
pw 19 0
rw 19 0
tw 20 0
zw 23 0
cx 4 0
mx 14 0
sx 19 0
by 3 0
cy 4 0
gy 5 0
ky 13 0
ly 14 0
my 14 0
py 19 0
sy 19 0
uy 21 0
az 1 0
bz 3 0
dz 4 0
kz 13 0
mz 14 0
nz 17 0
sz 19 0
tz 20 0
uz 21 0
pro 18 0
int 5 0
arpa 1 0
aero 1 0
co.im 5 0
aa.no 15 0
va.no 15 0
of.no 15 0
sf.no 15 0
vf.no 15 0
ah.no 15 0
hl.no 15 0
nl.no 15 0
ol.no 15 0
rl.no 15 0
fm.no 15 0
hm.no 15 0
tm.no 15 0
mr.no 15 0
tr.no 15 0
nt.no 15 0
st.no 15 0
bu.no 15 0
nc.tr 20 0
ca.us 20 0
ga.us 20 0
ia.us 20 0
la.us 21 0
ma.us 21 0
pa.us 21 0
va.us 21 0
wa.us 21 0
dc.us 20 0
nc.us 21 0
sc.us 21 0
id.us 21 0
md.us 21 0
nd.us 21 0
sd.us 21 0
de.us 20 0
me.us 21 0
ne.us 21 0
nh.us 21 0
oh.us 21 0
hi.us 20 0
mi.us 21 0
ri.us 21 0
vi.us 21 0
wi.us 21 0
nj.us 21 0
ak.us 20 0
ok.us 21 0
al.us 20 0
fl.us 20 0
il.us 21 0
nm.us 21 0
in.us 21 0
mn.us 21 0
tn.us 21 0
co.us 20 0
mo.us 21 0
ar.us 20 0
or.us 21 0
pr.us 21 0
as.us 20 0
ks.us 21 0
ms.us 21 0
ct.us 20 0
mt.us 21 0
ut.us 21 0
vt.us 21 0
gu.us 20 0
nv.us 21 0
wv.us 21 0
tx.us 21 0
ky.us 21 0
ny.us 21 0
wy.us 21 0
az.us 20 0
ac.at 1 0
sch.uk 20 1
gov.pl 18 0
mie.jp 7 0
nom.br 3 1
gov.br 2 0
edu.au 1 0
gov.au 1 0
香港 22 0
срб 23 0
oslo.no 15 0
saga.jp 7 0
nara.jp 7 0
oita.jp 7 0
kobe.jp 7 1
gifu.jp 7 0
chiba.jp 7 0
shiga.jp 7 0
osaka.jp 7 0
gunma.jp 7 0
akita.jp 7 0
ehime.jp 7 0
iwate.jp 7 0
aichi.jp 7 0
kochi.jp 7 0
fukui.jp 7 0
hyogo.jp 7 0
kyoto.jp 7 0
tokyo.jp 7 0
toyama.jp 7 0
kagawa.jp 7 0
nagoya.jp 7 1
sendai.jp 7 1
miyagi.jp 7 0
aomori.jp 7 0
nagano.jp 7 0
k12.ma.us 21 0
ไทย 23 0
ostfold.no 0 0
hedmark.no 0 0
fukuoka.jp 7 0
saitama.jp 7 0
okayama.jp 7 0
niigata.jp 7 0
okinawa.jp 7 0
shimane.jp 7 0
tochigi.jp 7 0
ibaraki.jp 7 0
tottori.jp 7 0
sapporo.jp 7 1
nsw.edu.au 1 0
ישראל 5 0
vestfold.no 0 0
østfold.no 0 0
nordland.no 0 0
svalbard.no 15 0
buskerud.no 0 0
telemark.no 0 0
akershus.no 0 0
shizuoka.jp 7 0
yokohama.jp 7 1
wakayama.jp 7 0
yamagata.jp 7 0
kanagawa.jp 7 0
ishikawa.jp 7 0
nagasaki.jp 7 0
kawasaki.jp 7 1
miyazaki.jp 7 0
hokkaido.jp 7 0
kumamoto.jp 7 0
hordaland.no 0 0
jan-mayen.no 15 0
kagoshima.jp 7 0
hiroshima.jp 7 0
tokushima.jp 7 0
fukushima.jp 7 0
yamaguchi.jp 7 0
yamanashi.jp 7 0
kitakyushu.jp 7 1
more-og-romsdal.no 0 0
møre-og-romsdal.no 0 0"

noncomputable def usedPublic00 : List Nat := lines! "ac
ae
aero
af
ag
ai
al
am
ao
ar
arpa
as
at
ac.at
au
edu.au
gov.au
nsw.edu.au
aw
az"

noncomputable def usedPublic01 : List Nat := lines! "ba
bb
*.bd
be
bf
bg
bh
bi
bj
bm
bn
bo
br
gov.br"

noncomputable def usedPublic02 : List Nat := lines! "*.nom.br
bs
bt
bw
by
bz
ca
cd
ci
*.ck
cl
cm
cn
co
cr
cu
cv
cw"

noncomputable def usedPublic03 : List Nat := lines! "cx
cy
dm
do
dz
ec
ee
eg
*.er
es
et
fi
fj
*.fk
fm
fr
gd
ge
gg
gh
gi
gl
gn
gp
gr"

noncomputable def usedPublic04 : List Nat := lines! "gt
gu
gy
hk
hn
hr
ht
hu
id
ie
il
ישראל
im
co.im
in
int
io
iq
ir
it"

noncomputable def usedPublic05 : List Nat := []

noncomputable def usedPublic06 : List Nat := lines! "je
*.jm
jo
jp
aichi.jp
akita.jp
aomori.jp
chiba.jp
ehime.jp
fukui.jp
fukuoka.jp
fukushima.jp
gifu.jp
gunma.jp
hiroshima.jp
hokkaido.jp
hyogo.jp
ibaraki.jp
ishikawa.jp
iwate.jp
kagawa.jp
kagoshima.jp
kanagawa.jp
kochi.jp
kumamoto.jp
kyoto.jp
mie.jp
miyagi.jp
miyazaki.jp
nagano.jp
nagasaki.jp
nara.jp
niigata.jp
oita.jp
okayama.jp
okinawa.jp
osaka.jp
saga.jp
saitama.jp
shiga.jp
shimane.jp
shizuoka.jp
tochigi.jp
tokushima.jp
tokyo.jp
tottori.jp
toyama.jp
wakayama.jp
yamagata.jp
yamaguchi.jp
yamanashi.jp
*.kawasaki.jp
*.kitakyushu.jp
*.kobe.jp
*.nagoya.jp
*.sapporo.jp
*.sendai.jp
*.yokohama.jp"

noncomputable def usedPublic07 : List Nat := []

noncomputable def usedPublic08 : List Nat := []

noncomputable def usedPublic09 : List Nat := []

noncomputable def usedPublic10 : List Nat := []

noncomputable def usedPublic11 : List Nat := []

noncomputable def usedPublic12 : List Nat := lines! "ke
kg
*.kh
ki
km
kn
kp
kr
kw
ky
kz
la
lb
lc"

noncomputable def usedPublic13 : List Nat := lines! "lk
lr
ls
lt
lv
ly
ma
mc
me
mg
mk
ml
*.mm
mn
mo
mr
ms
mt
mu
mv
mw
mx
my
mz
na
nc"

noncomputable def usedPublic14 : List Nat := lines! "nf
ng
ni
no
aa.no
ah.no
bu.no
fm.no
hl.no
hm.no
jan-mayen.no
mr.no
nl.no
nt.no
of.no
ol.no
oslo.no
rl.no
sf.no
st.no
svalbard.no
tm.no
tr.no
va.no
vf.no"

noncomputable def usedPublic15 : List Nat := []

noncomputable def usedPublic16 : List Nat := lines! "*.np
nr
nz
om
pa
pe
pf"

noncomputable def usedPublic17 : List Nat := lines! "*.pg
ph
pk
pl
gov.pl
pn
pr
pro
ps"

noncomputable def usedPublic18 : List Nat := lines! "pt
pw
py
qa
re
ro
rs
rw
sa
sb
sc
sd
se
sg
sh
sl
sn
so
ss
st
sv
sx
sy
sz"

noncomputable def usedPublic19 : List Nat := lines! "th
tj
tl
tm
tn
to
tr
nc.tr
tt
tw
tz
ua
ug
uk
*.sch.uk
us
ak.us
al.us
ar.us
as.us
az.us
ca.us
co.us
ct.us
dc.us
de.us
fl.us
ga.us
gu.us
hi.us
ia.us"

noncomputable def usedPublic20 : List Nat := lines! "id.us
il.us
in.us
ks.us
ky.us
la.us
ma.us
md.us
me.us
mi.us
mn.us
mo.us
ms.us
mt.us
nc.us
nd.us
ne.us
nh.us
nj.us
nm.us
nv.us
ny.us
oh.us
ok.us
or.us
pa.us
pr.us
ri.us
sc.us
sd.us
tn.us
tx.us
ut.us
va.us
vi.us
vt.us
wa.us
wi.us
wv.us
wy.us
k12.ma.us
uy
uz
vc
ve
vg
vi
vn"

noncomputable def usedPublic21 : List Nat := lines! "vu
ws
香港"

noncomputable def usedPublic22 : List Nat := lines! "срб
ไทย
ye
zm
zw"

noncomputable def usedPublic23 : List Nat := []

noncomputable def usedPublic24 : List Nat := []

noncomputable def usedPublic25 : List Nat := []

noncomputable def usedPublic26 : List Nat := []

noncomputable def usedPublic27 : List Nat := []

noncomputable def usedPublic28 : List Nat := []

noncomputable def usedPublic29 : List Nat := []

noncomputable def usedPublic30 : List Nat := []

noncomputable def usedPublic31 : List Nat := []

noncomputable def usedPublic32 : List Nat := []

noncomputable def usedPublic33 : List Nat := []

noncomputable def usedPublic34 : List Nat := []

noncomputable def usedPublic35 : List Nat := []

noncomputable def usedPublic36 : List Nat := []

noncomputable def usedPublic37 : List Nat := []

noncomputable def usedPublic : List (List Nat) := [usedPublic00, usedPublic01, usedPublic02, usedPublic03, usedPublic04, usedPublic05, usedPublic06, usedPublic07, usedPublic08, usedPublic09, usedPublic10, usedPublic11, usedPublic12, usedPublic13, usedPublic14, usedPublic15, usedPublic16, usedPublic17, usedPublic18, usedPublic19, usedPublic20, usedPublic21, usedPublic22, usedPublic23, usedPublic24, usedPublic25, usedPublic26, usedPublic27, usedPublic28, usedPublic29, usedPublic30, usedPublic31, usedPublic32, usedPublic33, usedPublic34, usedPublic35, usedPublic36, usedPublic37]

end Fasttld.Inv
