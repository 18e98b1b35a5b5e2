import Verif.Model.Lines
import Verif.Spec.Rules

/-!
# Specification: irregular names of the built-in list

Generated by tools/gen_inventory.py.  The lists are complete (C54); see also C57.
-/

namespace Fasttld.Spec
open Fasttld

/-- Paths that lead to longer rules without being a rule or the parent of a wildcard (without the private section). -/
noncomputable def gapsPublic : List Nat := lines! "akershus.no
buskerud.no
hedmark.no
hordaland.no
more-og-romsdal.no
møre-og-romsdal.no
nordland.no
ostfold.no
telemark.no
vestfold.no
østfold.no
za"

/-- Parents of wildcards with longer rules below them (without the private section). -/
noncomputable def shadowsPublic : List Nat := []

/-- Paths that lead to longer rules without being a rule or the parent of a wildcard (with the private section). -/
noncomputable def gapsAll : List Nat := lines! "evervault.app
funkfeuer.at
ortsinfo.at
cloudlets.com.au
on.aws
ap-northeast-1.on.aws
ap-southeast-1.on.aws
ap-southeast-2.on.aws
eu-central-1.on.aws
eu-north-1.on.aws
eu-west-1.on.aws
us-east-1.on.aws
us-east-2.on.aws
us-west-2.on.aws
repost.aws
sagemaker.aws
af-south-1.sagemaker.aws
ap-east-1.sagemaker.aws
ap-northeast-1.sagemaker.aws
ap-northeast-2.sagemaker.aws
ap-northeast-3.sagemaker.aws
ap-south-1.sagemaker.aws
ap-south-2.sagemaker.aws
ap-southeast-1.sagemaker.aws
ap-southeast-2.sagemaker.aws
ap-southeast-3.sagemaker.aws
ap-southeast-4.sagemaker.aws
ca-central-1.sagemaker.aws
ca-west-1.sagemaker.aws
eu-central-1.sagemaker.aws
eu-central-2.sagemaker.aws
eu-north-1.sagemaker.aws
eu-south-1.sagemaker.aws
eu-south-2.sagemaker.aws
eu-west-1.sagemaker.aws
eu-west-2.sagemaker.aws
eu-west-3.sagemaker.aws
il-central-1.sagemaker.aws
me-central-1.sagemaker.aws
me-south-1.sagemaker.aws
sa-east-1.sagemaker.aws
us-east-1.sagemaker.aws
us-east-2.sagemaker.aws
us-gov-east-1.sagemaker.aws
us-gov-west-1.sagemaker.aws
us-west-1.sagemaker.aws
us-west-2.sagemaker.aws
interhostsolutions.be
kuleuven.be
emf.camp
nabu.casa
spawn.cc
cloudscale.ch
lpg.cloudscale.ch
rma.cloudscale.ch
flow.ch
ae.flow.ch
axarnet.cloud
encoway.cloud
jelastic.cloud
jenv-aruba.cloud
aruba.jenv-aruba.cloud
eur.aruba.jenv-aruba.cloud
onstackit.cloud
reclaim.cloud
scw.cloud
baremetal.scw.cloud
fr-par.scw.cloud
instances.scw.cloud
nl-ams.scw.cloud
pl-waw.scw.cloud
trendhosting.cloud
canvasite.cn
amazonaws.com.cn
airflow.amazonaws.com.cn
cn-north-1.amazonaws.com.cn
dualstack.cn-north-1.amazonaws.com.cn
cn-northwest-1.amazonaws.com.cn
dualstack.cn-northwest-1.amazonaws.com.cn
eb.amazonaws.com.cn
sagemaker.com.cn
cn-north-1.sagemaker.com.cn
cn-northwest-1.sagemaker.com.cn
quickconnect.cn
amazonaws.com
af-south-1.amazonaws.com
aws-cloud9.af-south-1.amazonaws.com
cloud9.af-south-1.amazonaws.com
dualstack.af-south-1.amazonaws.com
airflow.amazonaws.com
ap-east-1.amazonaws.com
aws-cloud9.ap-east-1.amazonaws.com
cloud9.ap-east-1.amazonaws.com
dualstack.ap-east-1.amazonaws.com
ap-northeast-1.amazonaws.com
aws-cloud9.ap-northeast-1.amazonaws.com
cloud9.ap-northeast-1.amazonaws.com
dualstack.ap-northeast-1.amazonaws.com
ap-northeast-2.amazonaws.com
aws-cloud9.ap-northeast-2.amazonaws.com
cloud9.ap-northeast-2.amazonaws.com
dualstack.ap-northeast-2.amazonaws.com
ap-northeast-3.amazonaws.com
aws-cloud9.ap-northeast-3.amazonaws.com
cloud9.ap-northeast-3.amazonaws.com
dualstack.ap-northeast-3.amazonaws.com
ap-south-1.amazonaws.com
aws-cloud9.ap-south-1.amazonaws.com
cloud9.ap-south-1.amazonaws.com
dualstack.ap-south-1.amazonaws.com
ap-south-2.amazonaws.com
dualstack.ap-south-2.amazonaws.com
ap-southeast-1.amazonaws.com
aws-cloud9.ap-southeast-1.amazonaws.com
cloud9.ap-southeast-1.amazonaws.com
dualstack.ap-southeast-1.amazonaws.com
ap-southeast-2.amazonaws.com
aws-cloud9.ap-southeast-2.amazonaws.com
cloud9.ap-southeast-2.amazonaws.com
dualstack.ap-southeast-2.amazonaws.com
ap-southeast-3.amazonaws.com
dualstack.ap-southeast-3.amazonaws.com
ap-southeast-4.amazonaws.com
dualstack.ap-southeast-4.amazonaws.com
ap-southeast-5.amazonaws.com
dualstack.ap-southeast-5.amazonaws.com
ca-central-1.amazonaws.com
aws-cloud9.ca-central-1.amazonaws.com
cloud9.ca-central-1.amazonaws.com
dualstack.ca-central-1.amazonaws.com
ca-west-1.amazonaws.com
dualstack.ca-west-1.amazonaws.com
eu-central-1.amazonaws.com
aws-cloud9.eu-central-1.amazonaws.com
cloud9.eu-central-1.amazonaws.com
dualstack.eu-central-1.amazonaws.com
eu-central-2.amazonaws.com
dualstack.eu-central-2.amazonaws.com
eu-north-1.amazonaws.com
aws-cloud9.eu-north-1.amazonaws.com
cloud9.eu-north-1.amazonaws.com
dualstack.eu-north-1.amazonaws.com
eu-south-1.amazonaws.com
aws-cloud9.eu-south-1.amazonaws.com
cloud9.eu-south-1.amazonaws.com
dualstack.eu-south-1.amazonaws.com
eu-south-2.amazonaws.com
dualstack.eu-south-2.amazonaws.com
eu-west-1.amazonaws.com
aws-cloud9.eu-west-1.amazonaws.com
cloud9.eu-west-1.amazonaws.com
dualstack.eu-west-1.amazonaws.com
eu-west-2.amazonaws.com
aws-cloud9.eu-west-2.amazonaws.com
cloud9.eu-west-2.amazonaws.com
dualstack.eu-west-2.amazonaws.com
eu-west-3.amazonaws.com
aws-cloud9.eu-west-3.amazonaws.com
cloud9.eu-west-3.amazonaws.com
dualstack.eu-west-3.amazonaws.com
il-central-1.amazonaws.com
aws-cloud9.il-central-1.amazonaws.com
cloud9.il-central-1.amazonaws.com
dualstack.il-central-1.amazonaws.com
me-central-1.amazonaws.com
dualstack.me-central-1.amazonaws.com
me-south-1.amazonaws.com
aws-cloud9.me-south-1.amazonaws.com
cloud9.me-south-1.amazonaws.com
dualstack.me-south-1.amazonaws.com
s3-global.amazonaws.com
accesspoint.s3-global.amazonaws.com
sa-east-1.amazonaws.com
aws-cloud9.sa-east-1.amazonaws.com
cloud9.sa-east-1.amazonaws.com
dualstack.sa-east-1.amazonaws.com
aws-cloud9.us-east-1.amazonaws.com
cloud9.us-east-1.amazonaws.com
dualstack.us-east-1.amazonaws.com
us-east-2.amazonaws.com
aws-cloud9.us-east-2.amazonaws.com
cloud9.us-east-2.amazonaws.com
dualstack.us-east-2.amazonaws.com
us-gov-east-1.amazonaws.com
dualstack.us-gov-east-1.amazonaws.com
us-gov-west-1.amazonaws.com
dualstack.us-gov-west-1.amazonaws.com
us-west-1.amazonaws.com
aws-cloud9.us-west-1.amazonaws.com
cloud9.us-west-1.amazonaws.com
dualstack.us-west-1.amazonaws.com
us-west-2.amazonaws.com
aws-cloud9.us-west-2.amazonaws.com
cloud9.us-west-2.amazonaws.com
dualstack.us-west-2.amazonaws.com
amazoncognito.com
af-south-1.amazoncognito.com
ap-east-1.amazoncognito.com
ap-northeast-1.amazoncognito.com
ap-northeast-2.amazoncognito.com
ap-northeast-3.amazoncognito.com
ap-south-1.amazoncognito.com
ap-south-2.amazoncognito.com
ap-southeast-1.amazoncognito.com
ap-southeast-2.amazoncognito.com
ap-southeast-3.amazoncognito.com
ap-southeast-4.amazoncognito.com
ca-central-1.amazoncognito.com
ca-west-1.amazoncognito.com
eu-central-1.amazoncognito.com
eu-central-2.amazoncognito.com
eu-north-1.amazoncognito.com
eu-south-1.amazoncognito.com
eu-south-2.amazoncognito.com
eu-west-1.amazoncognito.com
eu-west-2.amazoncognito.com
eu-west-3.amazoncognito.com
il-central-1.amazoncognito.com
me-central-1.amazoncognito.com
me-south-1.amazoncognito.com
sa-east-1.amazoncognito.com
us-east-1.amazoncognito.com
us-east-2.amazoncognito.com
us-gov-west-1.amazoncognito.com
us-west-1.amazoncognito.com
us-west-2.amazoncognito.com
clever-cloud.com
code.com
datadetect.com
evennode.com
fbsbx.com
hosted-by-previder.com
hosteur.com
ik-server.com
jelastic.com
joyent.com
linode.com
linodeusercontent.com
massivegrid.com
mythic-beasts.com
nospamproxy.com
observableusercontent.com
prgmr.com
render.com
salesforce.com
platform.salesforce.com
code-builder-stg.platform.salesforce.com
test.code-builder-stg.platform.salesforce.com
stdlib.com
tb-hosting.com
typeform.com
wafaicloud.com
wiardweb.com
scaleforce.com.cy
contentproxy9.cz
metacentrum.cz
muni.cz
cloud.muni.cz
cosidns.de
hs-heilbronn.de
it.hs-heilbronn.de
noc.ruhr-uni-bochum.de
speedpartner.de
crm.dev
evervault.dev
psl.hrsn.dev
localcert.dev
rit.edu
crisp.email
tawk.email
tawkto.email
dogado.eu
party.eus
cloudplatform.fi
datacenter.fi
brendly.hr
beebyte.io
beebyteapp.io
bigv.io
brave.io
dappnode.io
forgerock.io
lair.io
nodeart.io
rb-hosting.io
resinstaging.io
scrypted.io
thingdust.io
dev.thingdust.io
disrec.thingdust.io
prod.thingdust.io
testing.thingdust.io
neen.it
aseinet.ne.jp
sakurastorage.jp
isk01.sakurastorage.jp
isk02.sakurastorage.jp
webaccel.jp
nftstorage.link
transip.me
her.name
his.name
atlassian-dev.net
prod.atlassian-dev.net
cdn77.net
cloudflareanycast.net
cloudflarecn.net
cloudflareglobal.net
elastx.net
fastly.net
prod.fastly.net
ssl.fastly.net
massivegrid.net
paas.massivegrid.net
mynetname.net
ovh.net
saveincloud.net
scaleforce.net
srcf.net
jelastic.vps-host.net
windows.net
core.windows.net
akershus.no
buskerud.no
hedmark.no
hordaland.no
more-og-romsdal.no
møre-og-romsdal.no
nordland.no
ostfold.no
telemark.no
vestfold.no
østfold.no
cdn77.org
cdn77-secure.org
origin.cdn77-secure.org
fedoraproject.org
os.fedoraproject.org
stg.fedoraproject.org
os.stg.fedoraproject.org
teckids.org
brendly.rs
cldmail.ru
val.run
platform.sh
canva.site
quickconnect.to
addr.tools
bytemark.co.uk
layershift.co.uk
retrosnub.co.uk
enscaled.us
za"

/-- Parents of wildcards with longer rules below them (with the private section). -/
noncomputable def shadowsAll : List Nat := lines! "snowflake.app
futurecms.at
firenet.ch
customer-oci.com
wc.psl.hrsn.dev"

/-- The gaps in the built-in list. -/
noncomputable def gaps (priv : Bool) : List Bytes := (if priv then gapsAll else gapsPublic).map unpack

/-- The shadowed wildcards of the built-in list. -/
noncomputable def shadows (priv : Bool) : List Bytes := (if priv then shadowsAll else shadowsPublic).map unpack

/-- The name (labels from the right) does not end in one of these names, as written or converted by `f`. -/
def Avoids (f : Bytes → Bytes) (paths : List Bytes) (name : List Bytes) : Prop :=
  ∀ g ∈ paths, ∀ ls, IsLabels g ls → ¬ ls.reverse <+: name ∧ ¬ (ls.map f).reverse <+: name

end Fasttld.Spec
