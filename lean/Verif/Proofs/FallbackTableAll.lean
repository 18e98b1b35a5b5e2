import Verif.Proofs.Inventory

/-!
# Table for the built-in list (All)

Generated by tools/gen_inventory.py; hints only, checked by the kernel.
-/

namespace Fasttld.Inv

noncomputable def tableAll : Table := table! "ba 2 0
ca 3 0
la 13 0
ma 14 0
na 14 0
pa 17 0
qa 19 0
sa 19 0
ua 20 0
za 0 0
bb 2 0
lb 13 0
sb 19 0
ac 1 0
cc 3 0
ec 4 0
lc 13 0
mc 14 0
nc 14 0
sc 19 0
vc 21 0
bd 2 1
cd 3 0
gd 4 0
id 5 0
md 14 0
sd 19 0
ae 1 0
be 2 0
de 4 0
ee 4 0
ge 4 0
ie 5 0
je 7 0
ke 13 0
me 14 0
pe 17 0
re 19 0
se 19 0
ve 21 0
ye 23 0
af 1 0
bf 2 0
nf 15 0
pf 17 0
tf 20 0
wf 22 0
ag 1 0
bg 2 0
eg 4 0
gg 4 0
kg 13 0
mg 14 0
ng 15 0
pg 18 1
sg 19 0
ug 20 0
vg 21 0
bh 2 0
ch 3 0
gh 4 0
kh 13 1
ph 18 0
sh 19 0
th 20 0
ai 1 0
bi 2 0
ci 3 0
fi 4 0
gi 4 0
ki 13 0
ni 15 0
si 19 0
vi 21 0
bj 2 0
fj 4 0
tj 20 0
ck 3 1
dk 4 0
fk 4 1
hk 5 0
lk 14 0
mk 14 0
pk 18 0
uk 20 0
al 1 0
cl 3 0
gl 4 0
il 5 0
ml 14 0
nl 15 0
pl 18 0
sl 19 0
tl 20 0
am 1 0
bm 2 0
cm 3 0
dm 4 0
fm 4 0
im 5 0
jm 7 1
km 13 0
mm 14 1
om 17 0
pm 18 0
tm 20 0
zm 23 0
bn 2 0
cn 3 0
gn 4 0
hn 5 0
in 5 0
kn 13 0
mn 14 0
pn 18 0
sn 19 0
tn 20 0
vn 21 0
ao 1 0
bo 2 0
co 3 0
do 4 0
io 5 0
jo 7 0
mo 14 0
no 15 0
ro 19 0
so 19 0
to 20 0
gp 4 0
jp 7 0
kp 13 0
mp 14 0
np 17 1
iq 5 0
ar 1 0
br 2 0
cr 3 0
er 4 1
fr 4 0
gr 4 0
hr 5 0
ir 5 0
kr 13 0
lr 14 0
mr 14 0
nr 17 0
pr 18 0
tr 20 0
as 1 0
bs 3 0
es 4 0
ls 14 0
ms 14 0
ps 18 0
rs 19 0
ss 19 0
us 20 0
ws 22 0
at 1 0
bt 3 0
et 4 0
gt 5 0
ht 5 0
it 5 0
lt 14 0
mt 14 0
pt 19 0
st 19 0
tt 20 0
yt 22 0
au 1 0
cu 3 0
eu 4 0
gu 5 0
hu 5 0
lu 14 0
mu 14 0
nu 17 0
ru 19 0
su 19 0
vu 22 0
cv 3 0
lv 14 0
mv 14 0
sv 19 0
tv 20 0
aw 1 0
bw 3 0
cw 3 0
kw 13 0
mw 14 0
pw 19 0
rw 19 0
tw 20 0
zw 23 0
cx 4 0
mx 14 0
sx 19 0
by 3 0
cy 4 0
gy 5 0
ky 13 0
ly 14 0
my 14 0
py 19 0
sy 19 0
uy 21 0
az 1 0
bz 3 0
cz 4 0
dz 4 0
kz 13 0
mz 14 0
nz 17 0
sz 19 0
tz 20 0
uz 21 0
pub 33 0
krd 30 0
one 32 0
ong 32 0
org 17 0
ovh 32 0
lol 30 0
com 3 0
mom 31 0
gdn 28 0
run 33 0
pro 18 0
rip 33 0
top 35 0
app 24 0
eus 27 0
aws 24 0
net 14 0
int 5 0
edu 4 0
dev 26 0
gay 28 0
biz 2 0
xyz 38 0
asia 1 0
arpa 1 0
casa 25 0
club 26 0
page 32 0
name 14 0
zone 38 0
site 34 0
live 30 0
goog 28 0
tech 35 0
mobi 14 0
wiki 36 0
link 30 0
cool 26 0
team 35 0
farm 27 0
info 5 0
aero 1 0
camp 25 0
shop 34 0
news 31 0
scot 34 0
host 29 0
menu 31 0
media 31 0
pizza 32 0
0e.vc 46 1
gv.vc 42 0
build 25 0
cloud 26 0
place 32 0
space 34 0
store 35 0
co.uk 20 0
co.il 5 0
email 27 0
co.im 5 0
sh.cn 3 0
aa.no 15 0
va.no 15 0
of.no 15 0
sf.no 15 0
vf.no 15 0
ah.no 15 0
hl.no 15 0
nl.no 15 0
ol.no 15 0
rl.no 15 0
fm.no 15 0
hm.no 15 0
tm.no 15 0
mr.no 15 0
tr.no 15 0
nt.no 15 0
st.no 15 0
bu.no 15 0
ne.jp 7 0
group 28 0
nc.tr 20 0
codes 26 0
games 28 0
rocks 33 0
tools 35 0
ca.us 20 0
ga.us 20 0
ia.us 20 0
la.us 21 0
ma.us 21 0
pa.us 21 0
va.us 21 0
wa.us 21 0
dc.us 20 0
nc.us 21 0
sc.us 21 0
id.us 21 0
md.us 21 0
nd.us 21 0
sd.us 21 0
de.us 20 0
me.us 21 0
ne.us 21 0
nh.us 21 0
oh.us 21 0
hi.us 20 0
mi.us 21 0
ri.us 21 0
vi.us 21 0
wi.us 21 0
nj.us 21 0
ak.us 20 0
ok.us 21 0
al.us 20 0
fl.us 20 0
il.us 21 0
nm.us 21 0
in.us 21 0
mn.us 21 0
tn.us 21 0
co.us 20 0
mo.us 21 0
ar.us 20 0
or.us 21 0
pr.us 21 0
as.us 20 0
ks.us 21 0
ms.us 21 0
ct.us 20 0
mt.us 21 0
ut.us 21 0
vt.us 21 0
gu.us 20 0
nv.us 21 0
wv.us 21 0
tx.us 21 0
ky.us 21 0
ny.us 21 0
wy.us 21 0
az.us 20 0
ac.at 1 0
today 35 0
id.pub 47 1
orange 32 0
online 32 0
estate 27 0
biz.ng 47 0
eu.org 45 0
health 29 0
org.uk 20 0
sch.uk 20 1
gov.uk 20 0
gov.pl 18 0
com.cn 3 0
design 26 0
qcx.io 50 0
mie.jp 7 0
leg.br 2 0
com.br 2 0
nom.br 3 1
gov.br 2 0
photos 32 0
events 27 0
srv.us 50 0
on.aws 0 0
direct 26 0
ts.net 52 0
com.au 1 0
edu.au 1 0
gov.au 1 0
com.tw 20 0
com.cy 4 0
рус 37 0
香港 22 0
срб 23 0
kin.pub 47 1
kin.one 47 1
website 36 0
hosting 29 0
flow.ch 0 0
network 31 0
digital 26 0
user.fm 45 1
val.run 0 0
repl.co 51 0
otap.co 43 1
xmit.co 50 1
lair.io 0 0
bigv.io 0 0
oslo.no 15 0
saga.jp 7 0
nara.jp 7 0
oita.jp 7 0
kobe.jp 7 1
gifu.jp 7 0
csb.app 43 0
run.app 46 1
systems 35 0
ovh.net 0 0
neen.it 0 0
support 35 0
rit.edu 0 0
stg.dev 42 1
lcl.dev 42 1
crm.dev 0 0
academy 23 0
muni.cz 0 0
awdev.ca 42 1
spawn.cc 0 0
hf.space 47 0
ddnss.de 43 0
her.name 0 0
his.name 0 0
tst.site 50 1
ewp.live 45 1
panel.gg 53 0
code.com 0 0
0emm.com 46 1
code.run 49 1
brave.io 0 0
ngrok.io 49 0
pstmn.io 50 0
chiba.jp 7 0
shiga.jp 7 0
osaka.jp 7 0
gunma.jp 7 0
akita.jp 7 0
ehime.jp 7 0
iwate.jp 7 0
aichi.jp 7 0
kochi.jp 7 0
fukui.jp 7 0
hyogo.jp 7 0
kyoto.jp 7 0
tokyo.jp 7 0
emf.camp 0 0
wadl.top 53 1
expo.app 45 0
services 34 0
pictures 32 0
builders 25 0
business 25 0
srcf.net 0 0
c.ts.net 52 1
gov.scot 51 0
mcdir.ru 48 0
hrsn.dev 47 0
nabu.casa 0 0
oxa.cloud 47 0
scw.cloud 0 0
frusky.de 46 1
cdn77.org 0 0
dweb.link 47 1
financial 27 0
prgmr.com 0 0
fbsbx.com 0 0
xnbay.com 53 0
education 27 0
liara.run 48 0
build.run 49 1
on-rio.io 50 1
on-k3s.io 50 1
stolos.io 52 1
toyama.jp 7 0
kagawa.jp 7 0
nagoya.jp 7 1
sendai.jp 7 1
miyagi.jp 7 0
aomori.jp 7 0
nagano.jp 7 0
upsun.app 50 1
beget.app 42 1
owo.codes 50 1
k12.ma.us 21 0
party.eus 0 0
cdn77.net 0 0
dogado.eu 0 0
myjino.ru 48 0
d.crm.dev 51 1
w.crm.dev 51 1
community 26 0
ไทย 23 0
cosidns.de 0 0
transip.me 0 0
canva.site 0 0
dyndns.org 44 0
firenet.ch 52 2
ae.flow.ch 0 0
tawk.email 0 0
basketball 24 0
stdlib.com 0 0
linode.com 0 0
render.com 0 0
joyent.com 0 0
beebyte.io 0 0
s.brave.io 42 1
nodeart.io 0 0
sys.qcx.io 50 1
ostfold.no 0 0
hedmark.no 0 0
fukuoka.jp 7 0
saitama.jp 7 0
okayama.jp 7 0
niigata.jp 7 0
okinawa.jp 7 0
shimane.jp 7 0
tochigi.jp 7 0
ibaraki.jp 7 0
tottori.jp 7 0
sapporo.jp 7 1
hosted.app 46 1
replit.app 51 0
brendly.hr 0 0
addr.tools 0 0
brendly.rs 0 0
advisor.ws 42 1
repost.aws 0 0
elastx.net 0 0
fastly.net 0 0
management 31 0
nsw.edu.au 1 0
cldmail.ru 0 0
wa.crm.dev 51 1
wb.crm.dev 51 1
wc.crm.dev 51 1
wd.crm.dev 51 1
we.crm.dev 51 1
wf.crm.dev 51 1
replit.dev 51 0
technology 35 0
ישראל 5 0
transurl.be 53 1
kuleuven.be 0 0
triton.zone 48 1
teckids.org 0 0
platform.sh 0 0
crisp.email 0 0
transurl.nl 53 1
hosteur.com 0 0
appspot.com 46 0
scrypted.io 0 0
dappnode.io 0 0
on-acorn.io 39 1
vestfold.no 0 0
østfold.no 0 0
nordland.no 0 0
svalbard.no 15 0
buskerud.no 0 0
telemark.no 0 0
akershus.no 0 0
shizuoka.jp 7 0
yokohama.jp 7 1
wakayama.jp 7 0
yamagata.jp 7 0
kanagawa.jp 7 0
ishikawa.jp 7 0
nagasaki.jp 7 0
kawasaki.jp 7 1
miyazaki.jp 7 0
webaccel.jp 0 0
hokkaido.jp 7 0
kumamoto.jp 7 0
enscaled.us 0 0
ortsinfo.at 0 0
windows.net 0 0
transurl.eu 53 1
webhare.dev 53 1
gateway.dev 46 1
telebit.xyz 52 1
uberspace.de 53 1
tawkto.email 0 0
wiardweb.com 0 0
jelastic.com 0 0
evennode.com 0 0
paywhirl.com 50 1
typeform.com 0 0
canvasite.cn 0 0
database.run 49 1
moonscale.io 47 1
forgerock.io 0 0
thingdust.io 0 0
hordaland.no 0 0
jan-mayen.no 15 0
kagoshima.jp 7 0
hiroshima.jp 7 0
tokushima.jp 7 0
fukushima.jp 7 0
yamaguchi.jp 7 0
yamanashi.jp 7 0
funkfeuer.at 0 0
futurecms.at 46 2
fastlylb.net 45 0
vps-host.net 52 0
stgstage.dev 42 1
lclstage.dev 42 1
psl.hrsn.dev 0 0
keliweb.cloud 47 0
reclaim.cloud 0 0
statics.cloud 46 1
axarnet.cloud 0 0
encoway.cloud 0 0
cloudera.site 43 1
my.canva.site 42 1
cloudscale.ch 0 0
datacenter.fi 0 0
alces.network 39 1
strapiapp.com 52 0
meteorapp.com 48 0
ik-server.com 0 0
amazonaws.com 0 0
r.appspot.com 46 1
migration.run 49 1
rb-hosting.io 0 0
beebyteapp.io 0 0
aseinet.ne.jp 0 0
kitakyushu.jp 7 1
snowflake.app 52 2
developer.app 49 1
evervault.app 0 0
sagemaker.aws 0 0
mynetname.net 0 0
vps.myjino.ru 48 1
evervault.dev 0 0
localcert.dev 0 0
cloud.muni.cz 0 0
jelastic.cloud 0 0
primetel.cloud 47 0
compute.estate 39 1
svc.firenet.ch 52 1
bytemark.co.uk 0 0
wafaicloud.com 0 0
salesforce.com 0 0
tb-hosting.com 0 0
datadetect.com 0 0
cns.joyent.com 48 1
northflank.app 49 1
ex.ortsinfo.at 46 1
scaleforce.net 0 0
cloudflare.net 43 0
torproject.net 52 0
cloudjiffy.net 47 0
ssl.fastly.net 0 0
metacentrum.cz 0 0
onstackit.cloud 0 0
hs-heilbronn.de 0 0
speedpartner.de 0 0
platformsh.site 50 1
nftstorage.link 0 0
retrosnub.co.uk 0 0
massivegrid.com 0 0
nospamproxy.com 0 0
my.canvasite.cn 42 1
quickconnect.cn 0 0
resinstaging.io 0 0
quickconnect.to 0 0
in.futurecms.at 46 1
ex.futurecms.at 46 1
cryptonomic.net 43 1
massivegrid.net 0 0
saveincloud.net 0 0
yandexcloud.net 53 0
hosting.ovh.net 50 1
webpaas.ovh.net 50 1
channelsdvr.net 45 0
prod.fastly.net 0 0
wc.psl.hrsn.dev 50 2
jenv-aruba.cloud 0 0
on-rancher.cloud 50 1
fr-par.scw.cloud 0 0
nl-ams.scw.cloud 0 0
pl-waw.scw.cloud 0 0
usercontent.goog 46 1
cdn77-secure.org 0 0
cloudplatform.fi 0 0
layershift.co.uk 0 0
clever-cloud.com 0 0
builder.code.com 51 1
customer-oci.com 50 2
awsapprunner.com 41 1
vultrobjects.com 53 1
quipelements.com 50 1
sagemaker.com.cn 0 0
amazonaws.com.cn 0 0
dev.thingdust.io 0 0
sakurastorage.jp 0 0
us-east-1.on.aws 0 0
eu-west-1.on.aws 0 0
us-east-2.on.aws 0 0
us-west-2.on.aws 0 0
cloudflarecn.net 0 0
core.windows.net 0 0
cloudlets.com.au 0 0
contentproxy9.cz 0 0
magentosite.cloud 48 1
home-webserver.de 43 0
fedoraproject.org 0 0
rma.cloudscale.ch 0 0
lpg.cloudscale.ch 0 0
cloudapps.digital 46 0
adobeaemcloud.com 39 0
amazoncognito.com 0 0
linodeobjects.com 48 1
mythic-beasts.com 0 0
elb.amazonaws.com 42 1
azurecontainer.io 49 1
prod.thingdust.io 0 0
eu-north-1.on.aws 0 0
atlassian-dev.net 0 0
landing.myjino.ru 48 1
hosting.myjino.ru 48 1
scaleforce.com.cy 0 0
trendhosting.cloud 0 0
ruhr-uni-bochum.de 51 0
it.hs-heilbronn.de 0 0
pythonanywhere.com 50 0
more-og-romsdal.no 0 0
private.repost.aws 42 1
kunden.ortsinfo.at 46 1
spectrum.myjino.ru 48 1
user.localcert.dev 48 1
baremetal.scw.cloud 0 0
instances.scw.cloud 0 0
wpenginepowered.com 53 0
oraclecloudapps.com 50 1
eb.amazonaws.com.cn 0 0
firewalledreplit.co 51 0
disrec.thingdust.io 0 0
møre-og-romsdal.no 0 0
eu-central-1.on.aws 0 0
azurestaticapps.net 49 0
sub.wc.psl.hrsn.dev 50 1
fnc.fr-par.scw.cloud 51 0
k8s.fr-par.scw.cloud 51 0
k8s.nl-ams.scw.cloud 51 0
k8s.pl-waw.scw.cloud 51 0
os.fedoraproject.org 0 0
stg-builder.code.com 51 1
dev-builder.code.com 51 1
oci.customer-oci.com 50 1
ocp.customer-oci.com 50 1
ocs.customer-oci.com 50 1
elasticbeanstalk.com 41 0
elb.amazonaws.com.cn 42 1
testing.thingdust.io 0 0
paas.massivegrid.net 0 0
cloudflareglobal.net 0 0
cloud.metacentrum.cz 48 1
interhostsolutions.be 0 0
stg.fedoraproject.org 0 0
oraclegovcloudapps.uk 50 1
dev.adobeaemcloud.com 39 1
compute.amazonaws.com 39 1
airflow.amazonaws.com 0 0
linodeusercontent.com 0 0
cloud.nospamproxy.com 49 0
ap-northeast-1.on.aws 0 0
ap-southeast-1.on.aws 0 0
ap-southeast-2.on.aws 0 0
cloudflareanycast.net 0 0
jelastic.vps-host.net 0 0
aruba.jenv-aruba.cloud 0 0
noc.ruhr-uni-bochum.de 0 0
hosted-by-previder.com 0 0
digitaloceanspaces.com 43 1
oraclegovcloudapps.com 50 1
isk01.sakurastorage.jp 0 0
isk02.sakurastorage.jp 0 0
prod.atlassian-dev.net 0 0
origin.cdn77-secure.org 0 0
platform.salesforce.com 0 0
nodebalancer.linode.com 48 1
compute-1.amazonaws.com 39 1
sa-east-1.amazonaws.com 0 0
ap-east-1.amazonaws.com 0 0
us-east-1.amazonaws.com 39 0
ca-west-1.amazonaws.com 0 0
us-west-1.amazonaws.com 0 0
eu-west-1.amazonaws.com 0 0
us-east-2.amazonaws.com 0 0
us-west-2.amazonaws.com 0 0
eu-west-2.amazonaws.com 0 0
eu-west-3.amazonaws.com 0 0
s3-global.amazonaws.com 0 0
sa-east-1.sagemaker.aws 0 0
ap-east-1.sagemaker.aws 0 0
us-east-1.sagemaker.aws 0 0
ca-west-1.sagemaker.aws 0 0
us-west-1.sagemaker.aws 0 0
eu-west-1.sagemaker.aws 0 0
us-east-2.sagemaker.aws 0 0
us-west-2.sagemaker.aws 0 0
eu-west-2.sagemaker.aws 0 0
eu-west-3.sagemaker.aws 0 0
os.stg.fedoraproject.org 0 0
eu-north-1.amazonaws.com 0 0
me-south-1.amazonaws.com 0 0
af-south-1.amazonaws.com 0 0
ap-south-1.amazonaws.com 0 0
eu-south-1.amazonaws.com 0 0
ap-south-2.amazonaws.com 0 0
eu-south-2.amazonaws.com 0 0
compute.amazonaws.com.cn 39 1
airflow.amazonaws.com.cn 0 0
eu-north-1.sagemaker.aws 0 0
me-south-1.sagemaker.aws 0 0
af-south-1.sagemaker.aws 0 0
ap-south-1.sagemaker.aws 0 0
eu-south-1.sagemaker.aws 0 0
ap-south-2.sagemaker.aws 0 0
eu-south-2.sagemaker.aws 0 0
services.clever-cloud.com 43 1
observableusercontent.com 0 0
privatelink.snowflake.app 52 1
experiments.sagemaker.aws 41 1
eur.aruba.jenv-aruba.cloud 0 0
ca-central-1.amazonaws.com 0 0
me-central-1.amazonaws.com 0 0
il-central-1.amazonaws.com 0 0
eu-central-1.amazonaws.com 0 0
eu-central-2.amazonaws.com 0 0
ca-central-1.sagemaker.aws 0 0
me-central-1.sagemaker.aws 0 0
il-central-1.sagemaker.aws 0 0
eu-central-1.sagemaker.aws 0 0
eu-central-2.sagemaker.aws 0 0
sa-east-1.amazoncognito.com 0 0
ap-east-1.amazoncognito.com 0 0
us-east-1.amazoncognito.com 0 0
ca-west-1.amazoncognito.com 0 0
us-west-1.amazoncognito.com 0 0
eu-west-1.amazoncognito.com 0 0
us-east-2.amazoncognito.com 0 0
us-west-2.amazoncognito.com 0 0
eu-west-2.amazoncognito.com 0 0
eu-west-3.amazoncognito.com 0 0
us-gov-east-1.amazonaws.com 0 0
us-gov-west-1.amazonaws.com 0 0
cn-north-1.sagemaker.com.cn 0 0
cn-north-1.amazonaws.com.cn 0 0
us-gov-east-1.sagemaker.aws 0 0
us-gov-west-1.sagemaker.aws 0 0
eu-north-1.amazoncognito.com 0 0
me-south-1.amazoncognito.com 0 0
af-south-1.amazoncognito.com 0 0
ap-south-1.amazoncognito.com 0 0
eu-south-1.amazoncognito.com 0 0
ap-south-2.amazoncognito.com 0 0
eu-south-2.amazoncognito.com 0 0
ap-northeast-1.amazonaws.com 0 0
ap-southeast-1.amazonaws.com 0 0
ap-northeast-2.amazonaws.com 0 0
ap-southeast-2.amazonaws.com 0 0
ap-northeast-3.amazonaws.com 0 0
ap-southeast-3.amazonaws.com 0 0
ap-southeast-4.amazonaws.com 0 0
ap-southeast-5.amazonaws.com 0 0
ap-northeast-1.sagemaker.aws 0 0
ap-southeast-1.sagemaker.aws 0 0
ap-northeast-2.sagemaker.aws 0 0
ap-southeast-2.sagemaker.aws 0 0
ap-northeast-3.sagemaker.aws 0 0
ap-southeast-3.sagemaker.aws 0 0
ap-southeast-4.sagemaker.aws 0 0
ca-central-1.amazoncognito.com 0 0
me-central-1.amazoncognito.com 0 0
il-central-1.amazoncognito.com 0 0
eu-central-1.amazoncognito.com 0 0
eu-central-2.amazoncognito.com 0 0
cloud9.sa-east-1.amazonaws.com 0 0
cloud9.ap-east-1.amazonaws.com 0 0
cloud9.us-east-1.amazonaws.com 0 0
cloud9.us-west-1.amazonaws.com 0 0
cloud9.eu-west-1.amazonaws.com 0 0
cloud9.us-east-2.amazonaws.com 0 0
cloud9.us-west-2.amazonaws.com 0 0
cloud9.eu-west-2.amazonaws.com 0 0
cloud9.eu-west-3.amazonaws.com 0 0
us-gov-west-1.amazoncognito.com 0 0
cloud9.eu-north-1.amazonaws.com 0 0
cloud9.me-south-1.amazonaws.com 0 0
cloud9.af-south-1.amazonaws.com 0 0
cloud9.ap-south-1.amazonaws.com 0 0
cloud9.eu-south-1.amazonaws.com 0 0
sa-east-1.airflow.amazonaws.com 40 1
ap-east-1.airflow.amazonaws.com 40 1
us-east-1.airflow.amazonaws.com 40 1
ca-west-1.airflow.amazonaws.com 40 1
us-west-1.airflow.amazonaws.com 40 1
eu-west-1.airflow.amazonaws.com 40 1
us-east-2.airflow.amazonaws.com 40 1
us-west-2.airflow.amazonaws.com 40 1
eu-west-2.airflow.amazonaws.com 40 1
eu-west-3.airflow.amazonaws.com 40 1
cn-northwest-1.sagemaker.com.cn 0 0
cn-northwest-1.amazonaws.com.cn 0 0
ap-northeast-1.amazoncognito.com 0 0
ap-southeast-1.amazoncognito.com 0 0
ap-northeast-2.amazoncognito.com 0 0
ap-southeast-2.amazoncognito.com 0 0
ap-northeast-3.amazoncognito.com 0 0
ap-southeast-3.amazoncognito.com 0 0
ap-southeast-4.amazoncognito.com 0 0
eu-north-1.airflow.amazonaws.com 40 1
me-south-1.airflow.amazonaws.com 40 1
af-south-1.airflow.amazonaws.com 40 1
ap-south-1.airflow.amazonaws.com 40 1
eu-south-1.airflow.amazonaws.com 40 1
ap-south-2.airflow.amazonaws.com 40 1
eu-south-2.airflow.amazonaws.com 40 1
cloud9.ca-central-1.amazonaws.com 0 0
cloud9.il-central-1.amazonaws.com 0 0
cloud9.eu-central-1.amazonaws.com 0 0
dualstack.sa-east-1.amazonaws.com 0 0
dualstack.ap-east-1.amazonaws.com 0 0
dualstack.us-east-1.amazonaws.com 0 0
dualstack.ca-west-1.amazonaws.com 0 0
dualstack.us-west-1.amazonaws.com 0 0
dualstack.eu-west-1.amazonaws.com 0 0
dualstack.us-east-2.amazonaws.com 0 0
dualstack.us-west-2.amazonaws.com 0 0
dualstack.eu-west-2.amazonaws.com 0 0
dualstack.eu-west-3.amazonaws.com 0 0
dualstack.eu-north-1.amazonaws.com 0 0
dualstack.me-south-1.amazonaws.com 0 0
dualstack.af-south-1.amazonaws.com 0 0
dualstack.ap-south-1.amazonaws.com 0 0
dualstack.eu-south-1.amazonaws.com 0 0
aws-cloud9.sa-east-1.amazonaws.com 0 0
aws-cloud9.ap-east-1.amazonaws.com 0 0
aws-cloud9.us-east-1.amazonaws.com 0 0
aws-cloud9.us-west-1.amazonaws.com 0 0
aws-cloud9.eu-west-1.amazonaws.com 0 0
dualstack.ap-south-2.amazonaws.com 0 0
dualstack.eu-south-2.amazonaws.com 0 0
aws-cloud9.us-east-2.amazonaws.com 0 0
aws-cloud9.us-west-2.amazonaws.com 0 0
aws-cloud9.eu-west-2.amazonaws.com 0 0
aws-cloud9.eu-west-3.amazonaws.com 0 0
ca-central-1.airflow.amazonaws.com 40 1
me-central-1.airflow.amazonaws.com 40 1
il-central-1.airflow.amazonaws.com 40 1
eu-central-1.airflow.amazonaws.com 40 1
eu-central-2.airflow.amazonaws.com 40 1
aws-cloud9.eu-north-1.amazonaws.com 0 0
aws-cloud9.me-south-1.amazonaws.com 0 0
aws-cloud9.af-south-1.amazonaws.com 0 0
aws-cloud9.ap-south-1.amazonaws.com 0 0
aws-cloud9.eu-south-1.amazonaws.com 0 0
cloud9.ap-northeast-1.amazonaws.com 0 0
cloud9.ap-southeast-1.amazonaws.com 0 0
cloud9.ap-northeast-2.amazonaws.com 0 0
cloud9.ap-southeast-2.amazonaws.com 0 0
cloud9.ap-northeast-3.amazonaws.com 0 0
accesspoint.s3-global.amazonaws.com 0 0
cn-north-1.airflow.amazonaws.com.cn 40 1
dualstack.ca-central-1.amazonaws.com 0 0
dualstack.me-central-1.amazonaws.com 0 0
dualstack.il-central-1.amazonaws.com 0 0
dualstack.eu-central-1.amazonaws.com 0 0
dualstack.eu-central-2.amazonaws.com 0 0
ap-northeast-1.airflow.amazonaws.com 40 1
ap-southeast-1.airflow.amazonaws.com 40 1
ap-northeast-2.airflow.amazonaws.com 40 1
ap-southeast-2.airflow.amazonaws.com 40 1
ap-northeast-3.airflow.amazonaws.com 40 1
ap-southeast-3.airflow.amazonaws.com 40 1
ap-southeast-4.airflow.amazonaws.com 40 1
aws-cloud9.ca-central-1.amazonaws.com 0 0
aws-cloud9.il-central-1.amazonaws.com 0 0
aws-cloud9.eu-central-1.amazonaws.com 0 0
dualstack.us-gov-east-1.amazonaws.com 0 0
dualstack.us-gov-west-1.amazonaws.com 0 0
dualstack.cn-north-1.amazonaws.com.cn 0 0
dualstack.ap-northeast-1.amazonaws.com 0 0
dualstack.ap-southeast-1.amazonaws.com 0 0
dualstack.ap-northeast-2.amazonaws.com 0 0
dualstack.ap-southeast-2.amazonaws.com 0 0
dualstack.ap-northeast-3.amazonaws.com 0 0
dualstack.ap-southeast-3.amazonaws.com 0 0
dualstack.ap-southeast-4.amazonaws.com 0 0
dualstack.ap-southeast-5.amazonaws.com 0 0
aws-cloud9.ap-northeast-1.amazonaws.com 0 0
aws-cloud9.ap-southeast-1.amazonaws.com 0 0
aws-cloud9.ap-northeast-2.amazonaws.com 0 0
aws-cloud9.ap-southeast-2.amazonaws.com 0 0
aws-cloud9.ap-northeast-3.amazonaws.com 0 0
cn-northwest-1.airflow.amazonaws.com.cn 40 1
code-builder-stg.platform.salesforce.com 0 0
dualstack.cn-northwest-1.amazonaws.com.cn 0 0
test.code-builder-stg.platform.salesforce.com 0 0
001.test.code-builder-stg.platform.salesforce.com 51 1"

noncomputable def usedAll00 : List Nat := lines! "ac
ae
aero
af
ag
ai
al
am
ao
ar
arpa
as
asia
at
ac.at
au
com.au
edu.au
gov.au
nsw.edu.au
aw
az"

noncomputable def usedAll01 : List Nat := lines! "ba
bb
*.bd
be
bf
bg
bh
bi
biz
bj
bm
bn
bo
br
com.br
gov.br
leg.br"

noncomputable def usedAll02 : List Nat := lines! "*.nom.br
bs
bt
bw
by
bz
ca
cc
cd
ch
ci
*.ck
cl
cm
cn
com.cn
sh.cn
co
com
cr
cu
cv
cw"

noncomputable def usedAll03 : List Nat := lines! "cx
cy
com.cy
cz
de
dk
dm
do
dz
ec
edu
ee
eg
*.er
es
et
eu
fi
fj
*.fk
fm
fr
gd
ge
gg
gh
gi
gl
gn
gp
gr"

noncomputable def usedAll04 : List Nat := lines! "gt
gu
gy
hk
hn
hr
ht
hu
id
ie
il
co.il
ישראל
im
co.im
in
info
int
io
iq
ir
it"

noncomputable def usedAll05 : List Nat := []

noncomputable def usedAll06 : List Nat := lines! "je
*.jm
jo
jp
ne.jp
aichi.jp
akita.jp
aomori.jp
chiba.jp
ehime.jp
fukui.jp
fukuoka.jp
fukushima.jp
gifu.jp
gunma.jp
hiroshima.jp
hokkaido.jp
hyogo.jp
ibaraki.jp
ishikawa.jp
iwate.jp
kagawa.jp
kagoshima.jp
kanagawa.jp
kochi.jp
kumamoto.jp
kyoto.jp
mie.jp
miyagi.jp
miyazaki.jp
nagano.jp
nagasaki.jp
nara.jp
niigata.jp
oita.jp
okayama.jp
okinawa.jp
osaka.jp
saga.jp
saitama.jp
shiga.jp
shimane.jp
shizuoka.jp
tochigi.jp
tokushima.jp
tokyo.jp
tottori.jp
toyama.jp
wakayama.jp
yamagata.jp
yamaguchi.jp
yamanashi.jp
*.kawasaki.jp
*.kitakyushu.jp
*.kobe.jp
*.nagoya.jp
*.sapporo.jp
*.sendai.jp
*.yokohama.jp"

noncomputable def usedAll07 : List Nat := []

noncomputable def usedAll08 : List Nat := []

noncomputable def usedAll09 : List Nat := []

noncomputable def usedAll10 : List Nat := []

noncomputable def usedAll11 : List Nat := []

noncomputable def usedAll12 : List Nat := lines! "ke
kg
*.kh
ki
km
kn
kp
kr
kw
ky
kz
la
lb
lc"

noncomputable def usedAll13 : List Nat := lines! "lk
lr
ls
lt
lu
lv
ly
ma
mc
md
me
mg
mk
ml
*.mm
mn
mo
mobi
mp
mr
ms
mt
mu
mv
mw
mx
my
mz
na
name
nc
net"

noncomputable def usedAll14 : List Nat := lines! "nf
ng
ni
nl
no
aa.no
ah.no
bu.no
fm.no
hl.no
hm.no
jan-mayen.no
mr.no
nl.no
nt.no
of.no
ol.no
oslo.no
rl.no
sf.no
st.no
svalbard.no
tm.no
tr.no
va.no
vf.no"

noncomputable def usedAll15 : List Nat := []

noncomputable def usedAll16 : List Nat := lines! "*.np
nr
nu
nz
om
org
pa
pe
pf"

noncomputable def usedAll17 : List Nat := lines! "*.pg
ph
pk
pl
gov.pl
pm
pn
pr
pro
ps"

noncomputable def usedAll18 : List Nat := lines! "pt
pw
py
qa
re
ro
rs
ru
rw
sa
sb
sc
sd
se
sg
sh
si
sl
sn
so
ss
st
su
sv
sx
sy
sz"

noncomputable def usedAll19 : List Nat := lines! "tf
th
tj
tl
tm
tn
to
tr
nc.tr
tt
tv
tw
com.tw
tz
ua
ug
uk
co.uk
gov.uk
org.uk
*.sch.uk
us
ak.us
al.us
ar.us
as.us
az.us
ca.us
co.us
ct.us
dc.us
de.us
fl.us
ga.us
gu.us
hi.us
ia.us"

noncomputable def usedAll20 : List Nat := lines! "id.us
il.us
in.us
ks.us
ky.us
la.us
ma.us
md.us
me.us
mi.us
mn.us
mo.us
ms.us
mt.us
nc.us
nd.us
ne.us
nh.us
nj.us
nm.us
nv.us
ny.us
oh.us
ok.us
or.us
pa.us
pr.us
ri.us
sc.us
sd.us
tn.us
tx.us
ut.us
va.us
vi.us
vt.us
wa.us
wi.us
wv.us
wy.us
k12.ma.us
uy
uz
vc
ve
vg
vi
vn"

noncomputable def usedAll21 : List Nat := lines! "vu
wf
ws
yt
香港"

noncomputable def usedAll22 : List Nat := lines! "срб
ไทย
ye
zm
zw
academy"

noncomputable def usedAll23 : List Nat := lines! "app
aws
basketball"

noncomputable def usedAll24 : List Nat := lines! "build
builders
business
camp
casa"

noncomputable def usedAll25 : List Nat := lines! "cloud
club
codes
community
cool
design
dev
digital
direct"

noncomputable def usedAll26 : List Nat := lines! "education
email
estate
eus
events
farm
financial"

noncomputable def usedAll27 : List Nat := lines! "games
gay
gdn
goog
group"

noncomputable def usedAll28 : List Nat := lines! "health
host
hosting"

noncomputable def usedAll29 : List Nat := lines! "krd
link
live
lol"

noncomputable def usedAll30 : List Nat := lines! "management
media
menu
mom
network
news"

noncomputable def usedAll31 : List Nat := lines! "one
ong
online
orange
ovh
page
photos
pictures
pizza
place"

noncomputable def usedAll32 : List Nat := lines! "pub
rip
rocks
run"

noncomputable def usedAll33 : List Nat := lines! "scot
services
shop
site
space"

noncomputable def usedAll34 : List Nat := lines! "store
support
systems
team
tech
technology
today
tools
top"

noncomputable def usedAll35 : List Nat := lines! "website
wiki"

noncomputable def usedAll36 : List Nat := lines! "рус"

noncomputable def usedAll37 : List Nat := lines! "xyz
zone"

noncomputable def usedAll38 : List Nat := lines! "*.on-acorn.io
adobeaemcloud.com
*.dev.adobeaemcloud.com
*.compute.estate
*.alces.network
*.compute.amazonaws.com.cn
*.compute.amazonaws.com
*.compute-1.amazonaws.com
us-east-1.amazonaws.com"

noncomputable def usedAll39 : List Nat := lines! "*.cn-north-1.airflow.amazonaws.com.cn
*.cn-northwest-1.airflow.amazonaws.com.cn
*.af-south-1.airflow.amazonaws.com
*.ap-east-1.airflow.amazonaws.com
*.ap-northeast-1.airflow.amazonaws.com
*.ap-northeast-2.airflow.amazonaws.com
*.ap-northeast-3.airflow.amazonaws.com
*.ap-south-1.airflow.amazonaws.com
*.ap-south-2.airflow.amazonaws.com
*.ap-southeast-1.airflow.amazonaws.com
*.ap-southeast-2.airflow.amazonaws.com
*.ap-southeast-3.airflow.amazonaws.com
*.ap-southeast-4.airflow.amazonaws.com
*.ca-central-1.airflow.amazonaws.com
*.ca-west-1.airflow.amazonaws.com
*.eu-central-1.airflow.amazonaws.com
*.eu-central-2.airflow.amazonaws.com
*.eu-north-1.airflow.amazonaws.com
*.eu-south-1.airflow.amazonaws.com
*.eu-south-2.airflow.amazonaws.com
*.eu-west-1.airflow.amazonaws.com
*.eu-west-2.airflow.amazonaws.com
*.eu-west-3.airflow.amazonaws.com
*.il-central-1.airflow.amazonaws.com
*.me-central-1.airflow.amazonaws.com
*.me-south-1.airflow.amazonaws.com
*.sa-east-1.airflow.amazonaws.com
*.us-east-1.airflow.amazonaws.com
*.us-east-2.airflow.amazonaws.com
*.us-west-1.airflow.amazonaws.com
*.us-west-2.airflow.amazonaws.com"

noncomputable def usedAll40 : List Nat := lines! "*.experiments.sagemaker.aws
*.awsapprunner.com
elasticbeanstalk.com"

noncomputable def usedAll41 : List Nat := lines! "*.elb.amazonaws.com.cn
*.elb.amazonaws.com
*.private.repost.aws
gv.vc
*.awdev.ca
*.advisor.ws
*.beget.app
*.s.brave.io
*.my.canvasite.cn
*.my.canva.site
*.lcl.dev
*.lclstage.dev
*.stg.dev
*.stgstage.dev"

noncomputable def usedAll42 : List Nat := lines! "*.services.clever-cloud.com
*.cloudera.site
cloudflare.net
*.otap.co
csb.app
*.cryptonomic.net
ddnss.de
home-webserver.de
*.digitaloceanspaces.com"

noncomputable def usedAll43 : List Nat := lines! "dyndns.org"

noncomputable def usedAll44 : List Nat := lines! "*.ewp.live
eu.org
expo.app
channelsdvr.net
fastlylb.net
*.user.fm"

noncomputable def usedAll45 : List Nat := lines! "*.0e.vc
*.frusky.de
*.futurecms.at
*.ex.futurecms.at
*.in.futurecms.at
*.ex.ortsinfo.at
*.kunden.ortsinfo.at
*.statics.cloud
*.hosted.app
*.run.app
*.0emm.com
appspot.com
*.r.appspot.com
*.gateway.dev
*.usercontent.goog
cloudapps.digital"

noncomputable def usedAll46 : List Nat := lines! "hrsn.dev
*.kin.one
*.id.pub
*.kin.pub
biz.ng
hf.space
*.moonscale.io
*.dweb.link
keliweb.cloud
oxa.cloud
primetel.cloud
cloudjiffy.net"

noncomputable def usedAll47 : List Nat := lines! "myjino.ru
*.hosting.myjino.ru
*.landing.myjino.ru
*.spectrum.myjino.ru
*.vps.myjino.ru
*.cns.joyent.com
*.triton.zone
liara.run
*.nodebalancer.linode.com
*.linodeobjects.com
*.user.localcert.dev
*.magentosite.cloud
mcdir.ru
*.cloud.metacentrum.cz
meteorapp.com"

noncomputable def usedAll48 : List Nat := lines! "*.azurecontainer.io
azurestaticapps.net
cloud.nospamproxy.com
ngrok.io
*.developer.app
*.northflank.app
*.build.run
*.code.run
*.database.run
*.migration.run"

noncomputable def usedAll49 : List Nat := lines! "*.customer-oci.com
*.oci.customer-oci.com
*.ocp.customer-oci.com
*.ocs.customer-oci.com
*.oraclecloudapps.com
*.oraclegovcloudapps.com
*.oraclegovcloudapps.uk
*.hosting.ovh.net
*.webpaas.ovh.net
*.owo.codes
*.paywhirl.com
*.xmit.co
srv.us
*.upsun.app
*.platformsh.site
*.tst.site
pstmn.io
*.wc.psl.hrsn.dev
*.sub.wc.psl.hrsn.dev
pythonanywhere.com
qcx.io
*.sys.qcx.io
*.quipelements.com
*.on-rancher.cloud
*.on-k3s.io
*.on-rio.io"

noncomputable def usedAll50 : List Nat := lines! "replit.app
firewalledreplit.co
repl.co
replit.dev
ruhr-uni-bochum.de
*.builder.code.com
*.dev-builder.code.com
*.stg-builder.code.com
*.001.test.code-builder-stg.platform.salesforce.com
*.d.crm.dev
*.w.crm.dev
*.wa.crm.dev
*.wb.crm.dev
*.wc.crm.dev
*.wd.crm.dev
*.we.crm.dev
*.wf.crm.dev
fnc.fr-par.scw.cloud
k8s.fr-par.scw.cloud
k8s.nl-ams.scw.cloud
k8s.pl-waw.scw.cloud
gov.scot"

noncomputable def usedAll51 : List Nat := lines! "*.snowflake.app
*.privatelink.snowflake.app
*.stolos.io
strapiapp.com
vps-host.net
ts.net
*.c.ts.net
*.telebit.xyz
*.firenet.ch
*.svc.firenet.ch
torproject.net"

noncomputable def usedAll52 : List Nat := lines! "*.transurl.be
*.transurl.eu
*.transurl.nl
*.uberspace.de
*.vultrobjects.com
*.webhare.dev
*.wadl.top
panel.gg
wpenginepowered.com
xnbay.com
yandexcloud.net"

noncomputable def usedAll : List (List Nat) := [usedAll00, usedAll01, usedAll02, usedAll03, usedAll04, usedAll05, usedAll06, usedAll07, usedAll08, usedAll09, usedAll10, usedAll11, usedAll12, usedAll13, usedAll14, usedAll15, usedAll16, usedAll17, usedAll18, usedAll19, usedAll20, usedAll21, usedAll22, usedAll23, usedAll24, usedAll25, usedAll26, usedAll27, usedAll28, usedAll29, usedAll30, usedAll31, usedAll32, usedAll33, usedAll34, usedAll35, usedAll36, usedAll37, usedAll38, usedAll39, usedAll40, usedAll41, usedAll42, usedAll43, usedAll44, usedAll45, usedAll46, usedAll47, usedAll48, usedAll49, usedAll50, usedAll51, usedAll52]

end Fasttld.Inv
