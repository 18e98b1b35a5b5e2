import Verif.Model.Fallback
import Verif.Proofs.FallbackTableAll
import Verif.Proofs.InventoryMore
import Verif.Spec.BuiltIn

/-!
# The gaps of the built-in list, checked (All)

Generated by tools/gen_inventory.py.
-/

namespace Fasttld.Inv
open Fasttld.Spec

noncomputable def belowAll14 : List Nat := lines! "nes.akershus.no
nes.buskerud.no"
noncomputable def childAll14 : List Nat := lines! "nes.akershus.no
nes.buskerud.no"
noncomputable def gapOfAll14 : List Nat := lines! "akershus.no
buskerud.no"

noncomputable def belowAll15 : List Nat := lines! "os.hedmark.no
os.hordaland.no
heroy.more-og-romsdal.no
herøy.møre-og-romsdal.no
bo.nordland.no
valer.ostfold.no
våler.østfold.no"
noncomputable def childAll15 : List Nat := lines! "os.hedmark.no
os.hordaland.no
heroy.more-og-romsdal.no
herøy.møre-og-romsdal.no
bo.nordland.no
valer.ostfold.no
våler.østfold.no"
noncomputable def gapOfAll15 : List Nat := lines! "hedmark.no
hordaland.no
more-og-romsdal.no
møre-og-romsdal.no
nordland.no
ostfold.no
østfold.no"

noncomputable def belowAll16 : List Nat := lines! "bo.telemark.no
sande.vestfold.no"
noncomputable def childAll16 : List Nat := lines! "bo.telemark.no
sande.vestfold.no"
noncomputable def gapOfAll16 : List Nat := lines! "telemark.no
vestfold.no"

noncomputable def belowAll22 : List Nat := lines! "ac.za"
noncomputable def childAll22 : List Nat := lines! "ac.za"
noncomputable def gapOfAll22 : List Nat := lines! "za"

noncomputable def belowAll38 : List Nat := lines! "dyn.addr.tools
execute-api.cn-north-1.amazonaws.com.cn
execute-api.cn-northwest-1.amazonaws.com.cn
execute-api.af-south-1.amazonaws.com
execute-api.ap-east-1.amazonaws.com
execute-api.ap-northeast-1.amazonaws.com
execute-api.ap-northeast-2.amazonaws.com
execute-api.ap-northeast-3.amazonaws.com
execute-api.ap-south-1.amazonaws.com
execute-api.ap-south-2.amazonaws.com
execute-api.ap-southeast-1.amazonaws.com
execute-api.ap-southeast-2.amazonaws.com
execute-api.ap-southeast-3.amazonaws.com
execute-api.ap-southeast-4.amazonaws.com
execute-api.ap-southeast-5.amazonaws.com
execute-api.ca-central-1.amazonaws.com
execute-api.ca-west-1.amazonaws.com
execute-api.eu-central-1.amazonaws.com
execute-api.eu-central-2.amazonaws.com
execute-api.eu-north-1.amazonaws.com
execute-api.eu-south-1.amazonaws.com
execute-api.eu-south-2.amazonaws.com
execute-api.eu-west-1.amazonaws.com
execute-api.eu-west-2.amazonaws.com
execute-api.eu-west-3.amazonaws.com
execute-api.il-central-1.amazonaws.com
execute-api.me-central-1.amazonaws.com
execute-api.me-south-1.amazonaws.com
execute-api.sa-east-1.amazonaws.com
execute-api.us-east-2.amazonaws.com
execute-api.us-gov-east-1.amazonaws.com
execute-api.us-gov-west-1.amazonaws.com
execute-api.us-west-1.amazonaws.com
execute-api.us-west-2.amazonaws.com
auth.af-south-1.amazoncognito.com
auth.ap-east-1.amazoncognito.com
auth.ap-northeast-1.amazoncognito.com
auth.ap-northeast-2.amazoncognito.com
auth.ap-northeast-3.amazoncognito.com
auth.ap-south-1.amazoncognito.com
auth.ap-south-2.amazoncognito.com
auth.ap-southeast-1.amazoncognito.com
auth.ap-southeast-2.amazoncognito.com
auth.ap-southeast-3.amazoncognito.com
auth.ap-southeast-4.amazoncognito.com
auth.ca-central-1.amazoncognito.com
auth.ca-west-1.amazoncognito.com
auth.eu-central-1.amazoncognito.com
auth.eu-central-2.amazoncognito.com
auth.eu-north-1.amazoncognito.com
auth.eu-south-1.amazoncognito.com
auth.eu-south-2.amazoncognito.com
auth.eu-west-1.amazoncognito.com
auth.eu-west-2.amazoncognito.com
auth.eu-west-3.amazoncognito.com
auth.il-central-1.amazoncognito.com
auth.me-central-1.amazoncognito.com
auth.me-south-1.amazoncognito.com
auth.sa-east-1.amazoncognito.com
auth.us-east-1.amazoncognito.com
auth.us-east-2.amazoncognito.com
auth-fips.us-gov-west-1.amazoncognito.com
auth.us-west-1.amazoncognito.com
auth.us-west-2.amazoncognito.com"
noncomputable def childAll38 : List Nat := lines! "dyn.addr.tools
execute-api.cn-north-1.amazonaws.com.cn
execute-api.cn-north-1.amazonaws.com.cn
execute-api.cn-northwest-1.amazonaws.com.cn
execute-api.af-south-1.amazonaws.com
execute-api.af-south-1.amazonaws.com
execute-api.ap-east-1.amazonaws.com
execute-api.ap-northeast-1.amazonaws.com
execute-api.ap-northeast-2.amazonaws.com
execute-api.ap-northeast-3.amazonaws.com
execute-api.ap-south-1.amazonaws.com
execute-api.ap-south-2.amazonaws.com
execute-api.ap-southeast-1.amazonaws.com
execute-api.ap-southeast-2.amazonaws.com
execute-api.ap-southeast-3.amazonaws.com
execute-api.ap-southeast-4.amazonaws.com
execute-api.ap-southeast-5.amazonaws.com
execute-api.ca-central-1.amazonaws.com
execute-api.ca-west-1.amazonaws.com
execute-api.eu-central-1.amazonaws.com
execute-api.eu-central-2.amazonaws.com
execute-api.eu-north-1.amazonaws.com
execute-api.eu-south-1.amazonaws.com
execute-api.eu-south-2.amazonaws.com
execute-api.eu-west-1.amazonaws.com
execute-api.eu-west-2.amazonaws.com
execute-api.eu-west-3.amazonaws.com
execute-api.il-central-1.amazonaws.com
execute-api.me-central-1.amazonaws.com
execute-api.me-south-1.amazonaws.com
execute-api.sa-east-1.amazonaws.com
execute-api.us-east-2.amazonaws.com
execute-api.us-gov-east-1.amazonaws.com
execute-api.us-gov-west-1.amazonaws.com
execute-api.us-west-1.amazonaws.com
execute-api.us-west-2.amazonaws.com
auth.af-south-1.amazoncognito.com
auth.af-south-1.amazoncognito.com
auth.ap-east-1.amazoncognito.com
auth.ap-northeast-1.amazoncognito.com
auth.ap-northeast-2.amazoncognito.com
auth.ap-northeast-3.amazoncognito.com
auth.ap-south-1.amazoncognito.com
auth.ap-south-2.amazoncognito.com
auth.ap-southeast-1.amazoncognito.com
auth.ap-southeast-2.amazoncognito.com
auth.ap-southeast-3.amazoncognito.com
auth.ap-southeast-4.amazoncognito.com
auth.ca-central-1.amazoncognito.com
auth.ca-west-1.amazoncognito.com
auth.eu-central-1.amazoncognito.com
auth.eu-central-2.amazoncognito.com
auth.eu-north-1.amazoncognito.com
auth.eu-south-1.amazoncognito.com
auth.eu-south-2.amazoncognito.com
auth.eu-west-1.amazoncognito.com
auth.eu-west-2.amazoncognito.com
auth.eu-west-3.amazoncognito.com
auth.il-central-1.amazoncognito.com
auth.me-central-1.amazoncognito.com
auth.me-south-1.amazoncognito.com
auth.sa-east-1.amazoncognito.com
auth.us-east-1.amazoncognito.com
auth.us-east-2.amazoncognito.com
auth-fips.us-gov-west-1.amazoncognito.com
auth.us-west-1.amazoncognito.com
auth.us-west-2.amazoncognito.com"
noncomputable def gapOfAll38 : List Nat := lines! "addr.tools
cn-north-1.amazonaws.com.cn
amazonaws.com.cn
cn-northwest-1.amazonaws.com.cn
af-south-1.amazonaws.com
amazonaws.com
ap-east-1.amazonaws.com
ap-northeast-1.amazonaws.com
ap-northeast-2.amazonaws.com
ap-northeast-3.amazonaws.com
ap-south-1.amazonaws.com
ap-south-2.amazonaws.com
ap-southeast-1.amazonaws.com
ap-southeast-2.amazonaws.com
ap-southeast-3.amazonaws.com
ap-southeast-4.amazonaws.com
ap-southeast-5.amazonaws.com
ca-central-1.amazonaws.com
ca-west-1.amazonaws.com
eu-central-1.amazonaws.com
eu-central-2.amazonaws.com
eu-north-1.amazonaws.com
eu-south-1.amazonaws.com
eu-south-2.amazonaws.com
eu-west-1.amazonaws.com
eu-west-2.amazonaws.com
eu-west-3.amazonaws.com
il-central-1.amazonaws.com
me-central-1.amazonaws.com
me-south-1.amazonaws.com
sa-east-1.amazonaws.com
us-east-2.amazonaws.com
us-gov-east-1.amazonaws.com
us-gov-west-1.amazonaws.com
us-west-1.amazonaws.com
us-west-2.amazonaws.com
af-south-1.amazoncognito.com
amazoncognito.com
ap-east-1.amazoncognito.com
ap-northeast-1.amazoncognito.com
ap-northeast-2.amazoncognito.com
ap-northeast-3.amazoncognito.com
ap-south-1.amazoncognito.com
ap-south-2.amazoncognito.com
ap-southeast-1.amazoncognito.com
ap-southeast-2.amazoncognito.com
ap-southeast-3.amazoncognito.com
ap-southeast-4.amazoncognito.com
ca-central-1.amazoncognito.com
ca-west-1.amazoncognito.com
eu-central-1.amazoncognito.com
eu-central-2.amazoncognito.com
eu-north-1.amazoncognito.com
eu-south-1.amazoncognito.com
eu-south-2.amazoncognito.com
eu-west-1.amazoncognito.com
eu-west-2.amazoncognito.com
eu-west-3.amazoncognito.com
il-central-1.amazoncognito.com
me-central-1.amazoncognito.com
me-south-1.amazoncognito.com
sa-east-1.amazoncognito.com
us-east-1.amazoncognito.com
us-east-2.amazoncognito.com
us-gov-west-1.amazoncognito.com
us-west-1.amazoncognito.com
us-west-2.amazoncognito.com"

noncomputable def belowAll39 : List Nat := lines! "*.cn-north-1.airflow.amazonaws.com.cn
*.af-south-1.airflow.amazonaws.com
s3.dualstack.cn-north-1.amazonaws.com.cn
s3.dualstack.cn-northwest-1.amazonaws.com.cn
s3.dualstack.af-south-1.amazonaws.com
s3.dualstack.ap-east-1.amazonaws.com
s3.dualstack.ap-northeast-1.amazonaws.com
s3.dualstack.ap-northeast-2.amazonaws.com
s3.dualstack.ap-northeast-3.amazonaws.com
s3.dualstack.ap-south-1.amazonaws.com
s3.dualstack.ap-south-2.amazonaws.com
s3.dualstack.ap-southeast-1.amazonaws.com
s3.dualstack.ap-southeast-2.amazonaws.com
s3.dualstack.ap-southeast-3.amazonaws.com
s3.dualstack.ap-southeast-4.amazonaws.com
s3.dualstack.ap-southeast-5.amazonaws.com
s3.dualstack.ca-central-1.amazonaws.com
s3.dualstack.ca-west-1.amazonaws.com
s3.dualstack.eu-central-1.amazonaws.com
s3.dualstack.eu-central-2.amazonaws.com
s3.dualstack.eu-north-1.amazonaws.com
s3.dualstack.eu-south-1.amazonaws.com
s3.dualstack.eu-south-2.amazonaws.com
s3.dualstack.eu-west-1.amazonaws.com
s3.dualstack.eu-west-2.amazonaws.com
s3.dualstack.eu-west-3.amazonaws.com
s3.dualstack.il-central-1.amazonaws.com
s3.dualstack.me-central-1.amazonaws.com
s3.dualstack.me-south-1.amazonaws.com
mrap.accesspoint.s3-global.amazonaws.com"
noncomputable def childAll39 : List Nat := lines! "*.cn-north-1.airflow.amazonaws.com.cn
*.af-south-1.airflow.amazonaws.com
s3.dualstack.cn-north-1.amazonaws.com.cn
s3.dualstack.cn-northwest-1.amazonaws.com.cn
s3.dualstack.af-south-1.amazonaws.com
s3.dualstack.ap-east-1.amazonaws.com
s3.dualstack.ap-northeast-1.amazonaws.com
s3.dualstack.ap-northeast-2.amazonaws.com
s3.dualstack.ap-northeast-3.amazonaws.com
s3.dualstack.ap-south-1.amazonaws.com
s3.dualstack.ap-south-2.amazonaws.com
s3.dualstack.ap-southeast-1.amazonaws.com
s3.dualstack.ap-southeast-2.amazonaws.com
s3.dualstack.ap-southeast-3.amazonaws.com
s3.dualstack.ap-southeast-4.amazonaws.com
s3.dualstack.ap-southeast-5.amazonaws.com
s3.dualstack.ca-central-1.amazonaws.com
s3.dualstack.ca-west-1.amazonaws.com
s3.dualstack.eu-central-1.amazonaws.com
s3.dualstack.eu-central-2.amazonaws.com
s3.dualstack.eu-north-1.amazonaws.com
s3.dualstack.eu-south-1.amazonaws.com
s3.dualstack.eu-south-2.amazonaws.com
s3.dualstack.eu-west-1.amazonaws.com
s3.dualstack.eu-west-2.amazonaws.com
s3.dualstack.eu-west-3.amazonaws.com
s3.dualstack.il-central-1.amazonaws.com
s3.dualstack.me-central-1.amazonaws.com
s3.dualstack.me-south-1.amazonaws.com
mrap.accesspoint.s3-global.amazonaws.com
mrap.accesspoint.s3-global.amazonaws.com"
noncomputable def gapOfAll39 : List Nat := lines! "airflow.amazonaws.com.cn
airflow.amazonaws.com
dualstack.cn-north-1.amazonaws.com.cn
dualstack.cn-northwest-1.amazonaws.com.cn
dualstack.af-south-1.amazonaws.com
dualstack.ap-east-1.amazonaws.com
dualstack.ap-northeast-1.amazonaws.com
dualstack.ap-northeast-2.amazonaws.com
dualstack.ap-northeast-3.amazonaws.com
dualstack.ap-south-1.amazonaws.com
dualstack.ap-south-2.amazonaws.com
dualstack.ap-southeast-1.amazonaws.com
dualstack.ap-southeast-2.amazonaws.com
dualstack.ap-southeast-3.amazonaws.com
dualstack.ap-southeast-4.amazonaws.com
dualstack.ap-southeast-5.amazonaws.com
dualstack.ca-central-1.amazonaws.com
dualstack.ca-west-1.amazonaws.com
dualstack.eu-central-1.amazonaws.com
dualstack.eu-central-2.amazonaws.com
dualstack.eu-north-1.amazonaws.com
dualstack.eu-south-1.amazonaws.com
dualstack.eu-south-2.amazonaws.com
dualstack.eu-west-1.amazonaws.com
dualstack.eu-west-2.amazonaws.com
dualstack.eu-west-3.amazonaws.com
dualstack.il-central-1.amazonaws.com
dualstack.me-central-1.amazonaws.com
dualstack.me-south-1.amazonaws.com
accesspoint.s3-global.amazonaws.com
s3-global.amazonaws.com"

noncomputable def belowAll40 : List Nat := lines! "s3.dualstack.sa-east-1.amazonaws.com
s3.dualstack.us-east-1.amazonaws.com
s3.dualstack.us-east-2.amazonaws.com
s3.dualstack.us-gov-east-1.amazonaws.com
s3.dualstack.us-gov-west-1.amazonaws.com
s3.dualstack.us-west-1.amazonaws.com
s3.dualstack.us-west-2.amazonaws.com
labeling.ap-northeast-1.sagemaker.aws
labeling.ap-northeast-2.sagemaker.aws
labeling.ap-south-1.sagemaker.aws
labeling.ap-southeast-1.sagemaker.aws
labeling.ap-southeast-2.sagemaker.aws
labeling.ca-central-1.sagemaker.aws
labeling.eu-central-1.sagemaker.aws
labeling.eu-west-1.sagemaker.aws
labeling.eu-west-2.sagemaker.aws
labeling.us-east-1.sagemaker.aws
labeling.us-east-2.sagemaker.aws
labeling.us-west-2.sagemaker.aws
notebook.af-south-1.sagemaker.aws
notebook.ap-east-1.sagemaker.aws
notebook.ap-northeast-3.sagemaker.aws
notebook.ap-south-2.sagemaker.aws
notebook.ap-southeast-3.sagemaker.aws
notebook.ap-southeast-4.sagemaker.aws
notebook.ca-west-1.sagemaker.aws
notebook.eu-central-2.sagemaker.aws
notebook.eu-north-1.sagemaker.aws
notebook.eu-south-1.sagemaker.aws
notebook.eu-south-2.sagemaker.aws
notebook.eu-west-3.sagemaker.aws
notebook.il-central-1.sagemaker.aws
notebook.me-central-1.sagemaker.aws
notebook.me-south-1.sagemaker.aws
notebook.sa-east-1.sagemaker.aws
notebook.us-gov-east-1.sagemaker.aws
notebook.us-gov-west-1.sagemaker.aws
notebook.us-west-1.sagemaker.aws
notebook.cn-north-1.sagemaker.com.cn
notebook.cn-northwest-1.sagemaker.com.cn
webview-assets.aws-cloud9.af-south-1.amazonaws.com
vfs.cloud9.af-south-1.amazonaws.com
webview-assets.aws-cloud9.ap-east-1.amazonaws.com
vfs.cloud9.ap-east-1.amazonaws.com
webview-assets.aws-cloud9.ap-northeast-1.amazonaws.com
vfs.cloud9.ap-northeast-1.amazonaws.com
webview-assets.aws-cloud9.ap-northeast-2.amazonaws.com
vfs.cloud9.ap-northeast-2.amazonaws.com
webview-assets.aws-cloud9.ap-northeast-3.amazonaws.com
vfs.cloud9.ap-northeast-3.amazonaws.com
webview-assets.aws-cloud9.ap-south-1.amazonaws.com
vfs.cloud9.ap-south-1.amazonaws.com
webview-assets.aws-cloud9.ap-southeast-1.amazonaws.com
vfs.cloud9.ap-southeast-1.amazonaws.com
webview-assets.aws-cloud9.ap-southeast-2.amazonaws.com
vfs.cloud9.ap-southeast-2.amazonaws.com
webview-assets.aws-cloud9.ca-central-1.amazonaws.com
vfs.cloud9.ca-central-1.amazonaws.com
webview-assets.aws-cloud9.eu-central-1.amazonaws.com
vfs.cloud9.eu-central-1.amazonaws.com
webview-assets.aws-cloud9.eu-north-1.amazonaws.com
vfs.cloud9.eu-north-1.amazonaws.com
webview-assets.aws-cloud9.eu-south-1.amazonaws.com
vfs.cloud9.eu-south-1.amazonaws.com
webview-assets.aws-cloud9.eu-west-1.amazonaws.com
vfs.cloud9.eu-west-1.amazonaws.com
webview-assets.aws-cloud9.eu-west-2.amazonaws.com
vfs.cloud9.eu-west-2.amazonaws.com
webview-assets.aws-cloud9.eu-west-3.amazonaws.com
vfs.cloud9.eu-west-3.amazonaws.com
webview-assets.aws-cloud9.il-central-1.amazonaws.com
vfs.cloud9.il-central-1.amazonaws.com
webview-assets.aws-cloud9.me-south-1.amazonaws.com
vfs.cloud9.me-south-1.amazonaws.com
webview-assets.aws-cloud9.sa-east-1.amazonaws.com
vfs.cloud9.sa-east-1.amazonaws.com
webview-assets.aws-cloud9.us-east-1.amazonaws.com
vfs.cloud9.us-east-1.amazonaws.com
webview-assets.aws-cloud9.us-east-2.amazonaws.com
vfs.cloud9.us-east-2.amazonaws.com
webview-assets.aws-cloud9.us-west-1.amazonaws.com
vfs.cloud9.us-west-1.amazonaws.com
webview-assets.aws-cloud9.us-west-2.amazonaws.com
vfs.cloud9.us-west-2.amazonaws.com
cn-north-1.eb.amazonaws.com.cn"
noncomputable def childAll40 : List Nat := lines! "s3.dualstack.sa-east-1.amazonaws.com
s3.dualstack.us-east-1.amazonaws.com
s3.dualstack.us-east-2.amazonaws.com
s3.dualstack.us-gov-east-1.amazonaws.com
s3.dualstack.us-gov-west-1.amazonaws.com
s3.dualstack.us-west-1.amazonaws.com
s3.dualstack.us-west-2.amazonaws.com
labeling.ap-northeast-1.sagemaker.aws
labeling.ap-northeast-1.sagemaker.aws
labeling.ap-northeast-2.sagemaker.aws
labeling.ap-south-1.sagemaker.aws
labeling.ap-southeast-1.sagemaker.aws
labeling.ap-southeast-2.sagemaker.aws
labeling.ca-central-1.sagemaker.aws
labeling.eu-central-1.sagemaker.aws
labeling.eu-west-1.sagemaker.aws
labeling.eu-west-2.sagemaker.aws
labeling.us-east-1.sagemaker.aws
labeling.us-east-2.sagemaker.aws
labeling.us-west-2.sagemaker.aws
notebook.af-south-1.sagemaker.aws
notebook.ap-east-1.sagemaker.aws
notebook.ap-northeast-3.sagemaker.aws
notebook.ap-south-2.sagemaker.aws
notebook.ap-southeast-3.sagemaker.aws
notebook.ap-southeast-4.sagemaker.aws
notebook.ca-west-1.sagemaker.aws
notebook.eu-central-2.sagemaker.aws
notebook.eu-north-1.sagemaker.aws
notebook.eu-south-1.sagemaker.aws
notebook.eu-south-2.sagemaker.aws
notebook.eu-west-3.sagemaker.aws
notebook.il-central-1.sagemaker.aws
notebook.me-central-1.sagemaker.aws
notebook.me-south-1.sagemaker.aws
notebook.sa-east-1.sagemaker.aws
notebook.us-gov-east-1.sagemaker.aws
notebook.us-gov-west-1.sagemaker.aws
notebook.us-west-1.sagemaker.aws
notebook.cn-north-1.sagemaker.com.cn
notebook.cn-north-1.sagemaker.com.cn
notebook.cn-northwest-1.sagemaker.com.cn
webview-assets.aws-cloud9.af-south-1.amazonaws.com
vfs.cloud9.af-south-1.amazonaws.com
webview-assets.aws-cloud9.ap-east-1.amazonaws.com
vfs.cloud9.ap-east-1.amazonaws.com
webview-assets.aws-cloud9.ap-northeast-1.amazonaws.com
vfs.cloud9.ap-northeast-1.amazonaws.com
webview-assets.aws-cloud9.ap-northeast-2.amazonaws.com
vfs.cloud9.ap-northeast-2.amazonaws.com
webview-assets.aws-cloud9.ap-northeast-3.amazonaws.com
vfs.cloud9.ap-northeast-3.amazonaws.com
webview-assets.aws-cloud9.ap-south-1.amazonaws.com
vfs.cloud9.ap-south-1.amazonaws.com
webview-assets.aws-cloud9.ap-southeast-1.amazonaws.com
vfs.cloud9.ap-southeast-1.amazonaws.com
webview-assets.aws-cloud9.ap-southeast-2.amazonaws.com
vfs.cloud9.ap-southeast-2.amazonaws.com
webview-assets.aws-cloud9.ca-central-1.amazonaws.com
vfs.cloud9.ca-central-1.amazonaws.com
webview-assets.aws-cloud9.eu-central-1.amazonaws.com
vfs.cloud9.eu-central-1.amazonaws.com
webview-assets.aws-cloud9.eu-north-1.amazonaws.com
vfs.cloud9.eu-north-1.amazonaws.com
webview-assets.aws-cloud9.eu-south-1.amazonaws.com
vfs.cloud9.eu-south-1.amazonaws.com
webview-assets.aws-cloud9.eu-west-1.amazonaws.com
vfs.cloud9.eu-west-1.amazonaws.com
webview-assets.aws-cloud9.eu-west-2.amazonaws.com
vfs.cloud9.eu-west-2.amazonaws.com
webview-assets.aws-cloud9.eu-west-3.amazonaws.com
vfs.cloud9.eu-west-3.amazonaws.com
webview-assets.aws-cloud9.il-central-1.amazonaws.com
vfs.cloud9.il-central-1.amazonaws.com
webview-assets.aws-cloud9.me-south-1.amazonaws.com
vfs.cloud9.me-south-1.amazonaws.com
webview-assets.aws-cloud9.sa-east-1.amazonaws.com
vfs.cloud9.sa-east-1.amazonaws.com
webview-assets.aws-cloud9.us-east-1.amazonaws.com
vfs.cloud9.us-east-1.amazonaws.com
webview-assets.aws-cloud9.us-east-2.amazonaws.com
vfs.cloud9.us-east-2.amazonaws.com
webview-assets.aws-cloud9.us-west-1.amazonaws.com
vfs.cloud9.us-west-1.amazonaws.com
webview-assets.aws-cloud9.us-west-2.amazonaws.com
vfs.cloud9.us-west-2.amazonaws.com
cn-north-1.eb.amazonaws.com.cn"
noncomputable def gapOfAll40 : List Nat := lines! "dualstack.sa-east-1.amazonaws.com
dualstack.us-east-1.amazonaws.com
dualstack.us-east-2.amazonaws.com
dualstack.us-gov-east-1.amazonaws.com
dualstack.us-gov-west-1.amazonaws.com
dualstack.us-west-1.amazonaws.com
dualstack.us-west-2.amazonaws.com
ap-northeast-1.sagemaker.aws
sagemaker.aws
ap-northeast-2.sagemaker.aws
ap-south-1.sagemaker.aws
ap-southeast-1.sagemaker.aws
ap-southeast-2.sagemaker.aws
ca-central-1.sagemaker.aws
eu-central-1.sagemaker.aws
eu-west-1.sagemaker.aws
eu-west-2.sagemaker.aws
us-east-1.sagemaker.aws
us-east-2.sagemaker.aws
us-west-2.sagemaker.aws
af-south-1.sagemaker.aws
ap-east-1.sagemaker.aws
ap-northeast-3.sagemaker.aws
ap-south-2.sagemaker.aws
ap-southeast-3.sagemaker.aws
ap-southeast-4.sagemaker.aws
ca-west-1.sagemaker.aws
eu-central-2.sagemaker.aws
eu-north-1.sagemaker.aws
eu-south-1.sagemaker.aws
eu-south-2.sagemaker.aws
eu-west-3.sagemaker.aws
il-central-1.sagemaker.aws
me-central-1.sagemaker.aws
me-south-1.sagemaker.aws
sa-east-1.sagemaker.aws
us-gov-east-1.sagemaker.aws
us-gov-west-1.sagemaker.aws
us-west-1.sagemaker.aws
cn-north-1.sagemaker.com.cn
sagemaker.com.cn
cn-northwest-1.sagemaker.com.cn
aws-cloud9.af-south-1.amazonaws.com
cloud9.af-south-1.amazonaws.com
aws-cloud9.ap-east-1.amazonaws.com
cloud9.ap-east-1.amazonaws.com
aws-cloud9.ap-northeast-1.amazonaws.com
cloud9.ap-northeast-1.amazonaws.com
aws-cloud9.ap-northeast-2.amazonaws.com
cloud9.ap-northeast-2.amazonaws.com
aws-cloud9.ap-northeast-3.amazonaws.com
cloud9.ap-northeast-3.amazonaws.com
aws-cloud9.ap-south-1.amazonaws.com
cloud9.ap-south-1.amazonaws.com
aws-cloud9.ap-southeast-1.amazonaws.com
cloud9.ap-southeast-1.amazonaws.com
aws-cloud9.ap-southeast-2.amazonaws.com
cloud9.ap-southeast-2.amazonaws.com
aws-cloud9.ca-central-1.amazonaws.com
cloud9.ca-central-1.amazonaws.com
aws-cloud9.eu-central-1.amazonaws.com
cloud9.eu-central-1.amazonaws.com
aws-cloud9.eu-north-1.amazonaws.com
cloud9.eu-north-1.amazonaws.com
aws-cloud9.eu-south-1.amazonaws.com
cloud9.eu-south-1.amazonaws.com
aws-cloud9.eu-west-1.amazonaws.com
cloud9.eu-west-1.amazonaws.com
aws-cloud9.eu-west-2.amazonaws.com
cloud9.eu-west-2.amazonaws.com
aws-cloud9.eu-west-3.amazonaws.com
cloud9.eu-west-3.amazonaws.com
aws-cloud9.il-central-1.amazonaws.com
cloud9.il-central-1.amazonaws.com
aws-cloud9.me-south-1.amazonaws.com
cloud9.me-south-1.amazonaws.com
aws-cloud9.sa-east-1.amazonaws.com
cloud9.sa-east-1.amazonaws.com
aws-cloud9.us-east-1.amazonaws.com
cloud9.us-east-1.amazonaws.com
aws-cloud9.us-east-2.amazonaws.com
cloud9.us-east-2.amazonaws.com
aws-cloud9.us-west-1.amazonaws.com
cloud9.us-west-1.amazonaws.com
aws-cloud9.us-west-2.amazonaws.com
cloud9.us-west-2.amazonaws.com
eb.amazonaws.com.cn"

noncomputable def belowAll41 : List Nat := lines! "*.private.repost.aws
transfer-webapp.ap-northeast-1.on.aws
transfer-webapp.ap-southeast-1.on.aws
transfer-webapp.ap-southeast-2.on.aws
transfer-webapp.eu-central-1.on.aws
transfer-webapp.eu-north-1.on.aws
transfer-webapp.eu-west-1.on.aws
transfer-webapp.us-east-1.on.aws
transfer-webapp.us-east-2.on.aws
transfer-webapp.us-west-2.on.aws
user.aseinet.ne.jp
user.party.eus
cdn.prod.atlassian-dev.net
*.s.brave.io
shop.brendly.hr
shop.brendly.rs
uk0.bigv.io
dh.bytemark.co.uk
*.my.canvasite.cn
*.my.canva.site
rsc.contentproxy9.cz
r.cdn77.net
c.cdn77.org
ssl.origin.cdn77-secure.org"
noncomputable def childAll41 : List Nat := lines! "*.private.repost.aws
transfer-webapp.ap-northeast-1.on.aws
transfer-webapp.ap-northeast-1.on.aws
transfer-webapp.ap-southeast-1.on.aws
transfer-webapp.ap-southeast-2.on.aws
transfer-webapp.eu-central-1.on.aws
transfer-webapp.eu-north-1.on.aws
transfer-webapp.eu-west-1.on.aws
transfer-webapp.us-east-1.on.aws
transfer-webapp.us-east-2.on.aws
transfer-webapp.us-west-2.on.aws
user.aseinet.ne.jp
user.party.eus
cdn.prod.atlassian-dev.net
cdn.prod.atlassian-dev.net
*.s.brave.io
shop.brendly.hr
shop.brendly.rs
uk0.bigv.io
dh.bytemark.co.uk
*.my.canvasite.cn
*.my.canva.site
rsc.contentproxy9.cz
r.cdn77.net
c.cdn77.org
ssl.origin.cdn77-secure.org
ssl.origin.cdn77-secure.org"
noncomputable def gapOfAll41 : List Nat := lines! "repost.aws
ap-northeast-1.on.aws
on.aws
ap-southeast-1.on.aws
ap-southeast-2.on.aws
eu-central-1.on.aws
eu-north-1.on.aws
eu-west-1.on.aws
us-east-1.on.aws
us-east-2.on.aws
us-west-2.on.aws
aseinet.ne.jp
party.eus
prod.atlassian-dev.net
atlassian-dev.net
brave.io
brendly.hr
brendly.rs
bigv.io
bytemark.co.uk
canvasite.cn
canva.site
contentproxy9.cz
cdn77.net
cdn77.org
origin.cdn77-secure.org
cdn77-secure.org"

noncomputable def belowAll42 : List Nat := lines! "*.services.clever-cloud.com
cdn.cloudflareanycast.net
cdn.cloudflarecn.net
cdn.cloudflareglobal.net
cust.cloudscale.ch
objects.lpg.cloudscale.ch
objects.rma.cloudscale.ch
dyn.cosidns.de
on.crisp.email
dyndns.dappnode.io
demo.datadetect.com"
noncomputable def childAll42 : List Nat := lines! "*.services.clever-cloud.com
cdn.cloudflareanycast.net
cdn.cloudflarecn.net
cdn.cloudflareglobal.net
cust.cloudscale.ch
objects.lpg.cloudscale.ch
objects.rma.cloudscale.ch
dyn.cosidns.de
on.crisp.email
dyndns.dappnode.io
demo.datadetect.com"
noncomputable def gapOfAll42 : List Nat := lines! "clever-cloud.com
cloudflareanycast.net
cloudflarecn.net
cloudflareglobal.net
cloudscale.ch
lpg.cloudscale.ch
rma.cloudscale.ch
cosidns.de
crisp.email
dappnode.io
datadetect.com"

noncomputable def belowAll43 : List Nat := lines! "forgot.her.name
forgot.his.name"
noncomputable def childAll43 : List Nat := lines! "forgot.her.name
forgot.his.name"
noncomputable def gapOfAll43 : List Nat := lines! "her.name
his.name"

noncomputable def belowAll44 : List Nat := lines! "at.emf.camp
eu.encoway.cloud
eu-1.evennode.com
relay.evervault.app
relay.evervault.dev
freetls.fastly.net
a.prod.fastly.net
a.ssl.fastly.net
cloud.fedoraproject.org
app.os.fedoraproject.org
app.os.stg.fedoraproject.org"
noncomputable def childAll44 : List Nat := lines! "at.emf.camp
eu.encoway.cloud
eu-1.evennode.com
relay.evervault.app
relay.evervault.dev
freetls.fastly.net
a.prod.fastly.net
a.ssl.fastly.net
cloud.fedoraproject.org
app.os.fedoraproject.org
app.os.stg.fedoraproject.org
app.os.stg.fedoraproject.org"
noncomputable def gapOfAll44 : List Nat := lines! "emf.camp
encoway.cloud
evennode.com
evervault.app
evervault.dev
fastly.net
prod.fastly.net
ssl.fastly.net
fedoraproject.org
os.fedoraproject.org
os.stg.fedoraproject.org
stg.fedoraproject.org"

noncomputable def belowAll45 : List Nat := lines! "id.forgerock.io
wien.funkfeuer.at
*.ex.ortsinfo.at"
noncomputable def childAll45 : List Nat := lines! "id.forgerock.io
wien.funkfeuer.at
*.ex.ortsinfo.at"
noncomputable def gapOfAll45 : List Nat := lines! "forgerock.io
funkfeuer.at
ortsinfo.at"

noncomputable def belowAll46 : List Nat := lines! "pages.it.hs-heilbronn.de
mel.cloudlets.com.au
cloud.interhostsolutions.be
alp1.ae.flow.ch
es-1.axarnet.cloud
vip.jelastic.cloud
it1.eur.aruba.jenv-aruba.cloud
ca.reclaim.cloud
ch.trendhosting.cloud
paas.hosted-by-previder.com
rag-cloud.hosteur.com
jcloud.ik-server.com
demo.jelastic.com
paas.massivegrid.com
jed.wafaicloud.com
j.scaleforce.com.cy
jelastic.dogado.eu
fi.cloudplatform.fi
demo.datacenter.fi
paas.beebyte.io
sekd1.beebyteapp.io
jc.neen.it"
noncomputable def childAll46 : List Nat := lines! "pages.it.hs-heilbronn.de
pages.it.hs-heilbronn.de
mel.cloudlets.com.au
cloud.interhostsolutions.be
alp1.ae.flow.ch
alp1.ae.flow.ch
es-1.axarnet.cloud
vip.jelastic.cloud
it1.eur.aruba.jenv-aruba.cloud
it1.eur.aruba.jenv-aruba.cloud
it1.eur.aruba.jenv-aruba.cloud
ca.reclaim.cloud
ch.trendhosting.cloud
paas.hosted-by-previder.com
rag-cloud.hosteur.com
jcloud.ik-server.com
demo.jelastic.com
paas.massivegrid.com
jed.wafaicloud.com
j.scaleforce.com.cy
jelastic.dogado.eu
fi.cloudplatform.fi
demo.datacenter.fi
paas.beebyte.io
sekd1.beebyteapp.io
jc.neen.it"
noncomputable def gapOfAll46 : List Nat := lines! "it.hs-heilbronn.de
hs-heilbronn.de
cloudlets.com.au
interhostsolutions.be
ae.flow.ch
flow.ch
axarnet.cloud
jelastic.cloud
eur.aruba.jenv-aruba.cloud
aruba.jenv-aruba.cloud
jenv-aruba.cloud
reclaim.cloud
trendhosting.cloud
hosted-by-previder.com
hosteur.com
ik-server.com
jelastic.com
massivegrid.com
wafaicloud.com
scaleforce.com.cy
dogado.eu
cloudplatform.fi
datacenter.fi
beebyte.io
beebyteapp.io
neen.it"

noncomputable def belowAll47 : List Nat := lines! "jls-sto1.elastx.net
fr-1.paas.massivegrid.net
jelastic.saveincloud.net
j.scaleforce.net
j.layershift.co.uk
phx.enscaled.us
*.cns.joyent.com
ezproxy.kuleuven.be
members.linode.com
ip.linodeusercontent.com
*.user.localcert.dev
hb.cldmail.ru
apps.fbsbx.com
*.cloud.metacentrum.cz
flt.cloud.muni.cz"
noncomputable def childAll47 : List Nat := lines! "jls-sto1.elastx.net
fr-1.paas.massivegrid.net
fr-1.paas.massivegrid.net
jelastic.saveincloud.net
j.scaleforce.net
j.layershift.co.uk
phx.enscaled.us
*.cns.joyent.com
ezproxy.kuleuven.be
members.linode.com
ip.linodeusercontent.com
*.user.localcert.dev
hb.cldmail.ru
apps.fbsbx.com
*.cloud.metacentrum.cz
flt.cloud.muni.cz
flt.cloud.muni.cz"
noncomputable def gapOfAll47 : List Nat := lines! "elastx.net
paas.massivegrid.net
massivegrid.net
saveincloud.net
scaleforce.net
layershift.co.uk
enscaled.us
joyent.com
kuleuven.be
linode.com
linodeusercontent.com
localcert.dev
cldmail.ru
fbsbx.com
metacentrum.cz
cloud.muni.cz
muni.cz"

noncomputable def belowAll48 : List Nat := lines! "blob.core.windows.net
sn.mynetname.net
caracal.mythic-beasts.com
cust.retrosnub.co.uk
ui.nabu.casa
cloud.nospamproxy.com
ipfs.nftstorage.link
stage.nodeart.io
static.observableusercontent.com"
noncomputable def childAll48 : List Nat := lines! "blob.core.windows.net
blob.core.windows.net
sn.mynetname.net
caracal.mythic-beasts.com
cust.retrosnub.co.uk
ui.nabu.casa
cloud.nospamproxy.com
ipfs.nftstorage.link
stage.nodeart.io
static.observableusercontent.com"
noncomputable def gapOfAll48 : List Nat := lines! "core.windows.net
windows.net
mynetname.net
mythic-beasts.com
retrosnub.co.uk
nabu.casa
nospamproxy.com
nftstorage.link
nodeart.io
observableusercontent.com"

noncomputable def belowAll49 : List Nat := lines! "*.hosting.ovh.net
ent.platform.sh
xen.prgmr.com
sub.psl.hrsn.dev
site.rb-hosting.io"
noncomputable def childAll49 : List Nat := lines! "*.hosting.ovh.net
ent.platform.sh
xen.prgmr.com
sub.psl.hrsn.dev
site.rb-hosting.io"
noncomputable def gapOfAll49 : List Nat := lines! "ovh.net
platform.sh
prgmr.com
psl.hrsn.dev
rb-hosting.io"

noncomputable def belowAll50 : List Nat := lines! "instances.spawn.cc
app.render.com
devices.resinstaging.io
git-pages.rit.edu
io.noc.ruhr-uni-bochum.de
s3.isk01.sakurastorage.jp
s3.isk02.sakurastorage.jp
rs.webaccel.jp
*.builder.code.com
*.001.test.code-builder-stg.platform.salesforce.com
*.d.crm.dev
fr-par-1.baremetal.scw.cloud
cockpit.fr-par.scw.cloud
priv.instances.scw.cloud
cockpit.nl-ams.scw.cloud
cockpit.pl-waw.scw.cloud
client.scrypted.io"
noncomputable def childAll50 : List Nat := lines! "instances.spawn.cc
app.render.com
devices.resinstaging.io
git-pages.rit.edu
io.noc.ruhr-uni-bochum.de
s3.isk01.sakurastorage.jp
s3.isk01.sakurastorage.jp
s3.isk02.sakurastorage.jp
rs.webaccel.jp
*.builder.code.com
*.001.test.code-builder-stg.platform.salesforce.com
*.001.test.code-builder-stg.platform.salesforce.com
*.001.test.code-builder-stg.platform.salesforce.com
*.001.test.code-builder-stg.platform.salesforce.com
*.d.crm.dev
fr-par-1.baremetal.scw.cloud
fr-par-1.baremetal.scw.cloud
cockpit.fr-par.scw.cloud
priv.instances.scw.cloud
cockpit.nl-ams.scw.cloud
cockpit.pl-waw.scw.cloud
client.scrypted.io"
noncomputable def gapOfAll50 : List Nat := lines! "spawn.cc
render.com
resinstaging.io
rit.edu
noc.ruhr-uni-bochum.de
isk01.sakurastorage.jp
sakurastorage.jp
isk02.sakurastorage.jp
webaccel.jp
code.com
test.code-builder-stg.platform.salesforce.com
code-builder-stg.platform.salesforce.com
platform.salesforce.com
salesforce.com
crm.dev
baremetal.scw.cloud
scw.cloud
fr-par.scw.cloud
instances.scw.cloud
nl-ams.scw.cloud
pl-waw.scw.cloud
scrypted.io"

noncomputable def belowAll51 : List Nat := lines! "apps.lair.io
customer.speedpartner.de
runs.onstackit.cloud
api.stdlib.com
atl.jelastic.vps-host.net
soc.srcf.net
direct.quickconnect.cn
direct.quickconnect.to
p.tawk.email
p.tawkto.email
site.tb-hosting.com
s3.teckids.org
cust.dev.thingdust.io
cust.disrec.thingdust.io
cust.prod.thingdust.io
cust.testing.thingdust.io"
noncomputable def childAll51 : List Nat := lines! "apps.lair.io
customer.speedpartner.de
runs.onstackit.cloud
api.stdlib.com
atl.jelastic.vps-host.net
soc.srcf.net
direct.quickconnect.cn
direct.quickconnect.to
p.tawk.email
p.tawkto.email
site.tb-hosting.com
s3.teckids.org
cust.dev.thingdust.io
cust.dev.thingdust.io
cust.disrec.thingdust.io
cust.prod.thingdust.io
cust.testing.thingdust.io"
noncomputable def gapOfAll51 : List Nat := lines! "lair.io
speedpartner.de
onstackit.cloud
stdlib.com
jelastic.vps-host.net
srcf.net
quickconnect.cn
quickconnect.to
tawk.email
tawkto.email
tb-hosting.com
teckids.org
dev.thingdust.io
thingdust.io
disrec.thingdust.io
prod.thingdust.io
testing.thingdust.io"

noncomputable def belowAll52 : List Nat := lines! "site.transip.me
pro.typeform.com
express.val.run
pages.wiardweb.com"
noncomputable def childAll52 : List Nat := lines! "site.transip.me
pro.typeform.com
express.val.run
pages.wiardweb.com"
noncomputable def gapOfAll52 : List Nat := lines! "transip.me
typeform.com
val.run
wiardweb.com"

/-- Rules below gaps, by part. -/
noncomputable def belowAll : List (List Nat × List Nat × List Nat) :=
  [([], [], []), ([], [], []), ([], [], []), ([], [], []), ([], [], []), ([], [], []), ([], [], []), ([], [], []), ([], [], []), ([], [], []), ([], [], []), ([], [], []), ([], [], []), ([], [], []), (belowAll14, childAll14, gapOfAll14), (belowAll15, childAll15, gapOfAll15), (belowAll16, childAll16, gapOfAll16), ([], [], []), ([], [], []), ([], [], []), ([], [], []), ([], [], []), (belowAll22, childAll22, gapOfAll22), ([], [], []), ([], [], []), ([], [], []), ([], [], []), ([], [], []), ([], [], []), ([], [], []), ([], [], []), ([], [], []), ([], [], []), ([], [], []), ([], [], []), ([], [], []), ([], [], []), ([], [], []), (belowAll38, childAll38, gapOfAll38), (belowAll39, childAll39, gapOfAll39), (belowAll40, childAll40, gapOfAll40), (belowAll41, childAll41, gapOfAll41), (belowAll42, childAll42, gapOfAll42), (belowAll43, childAll43, gapOfAll43), (belowAll44, childAll44, gapOfAll44), (belowAll45, childAll45, gapOfAll45), (belowAll46, childAll46, gapOfAll46), (belowAll47, childAll47, gapOfAll47), (belowAll48, childAll48, gapOfAll48), (belowAll49, childAll49, gapOfAll49), (belowAll50, childAll50, gapOfAll50), (belowAll51, childAll51, gapOfAll51), (belowAll52, childAll52, gapOfAll52)]

theorem belowInAll00 : belowOK [] [] [] fallbackPublic00 = true := rfl
theorem notGapAll00 : allL (notGap tableAll) 0 fallbackPublic00 = true := by decide +kernel
theorem belowInAll01 : belowOK [] [] [] fallbackPublic01 = true := rfl
theorem notGapAll01 : allL (notGap tableAll) 0 fallbackPublic01 = true := by decide +kernel
theorem belowInAll02 : belowOK [] [] [] fallbackPublic02 = true := rfl
theorem notGapAll02 : allL (notGap tableAll) 0 fallbackPublic02 = true := by decide +kernel
theorem belowInAll03 : belowOK [] [] [] fallbackPublic03 = true := rfl
theorem notGapAll03 : allL (notGap tableAll) 0 fallbackPublic03 = true := by decide +kernel
theorem belowInAll04 : belowOK [] [] [] fallbackPublic04 = true := rfl
theorem notGapAll04 : allL (notGap tableAll) 0 fallbackPublic04 = true := by decide +kernel
theorem belowInAll05 : belowOK [] [] [] fallbackPublic05 = true := rfl
theorem notGapAll05 : allL (notGap tableAll) 0 fallbackPublic05 = true := by decide +kernel
theorem belowInAll06 : belowOK [] [] [] fallbackPublic06 = true := rfl
theorem notGapAll06 : allL (notGap tableAll) 0 fallbackPublic06 = true := by decide +kernel
theorem belowInAll07 : belowOK [] [] [] fallbackPublic07 = true := rfl
theorem notGapAll07 : allL (notGap tableAll) 0 fallbackPublic07 = true := by decide +kernel
theorem belowInAll08 : belowOK [] [] [] fallbackPublic08 = true := rfl
theorem notGapAll08 : allL (notGap tableAll) 0 fallbackPublic08 = true := by decide +kernel
theorem belowInAll09 : belowOK [] [] [] fallbackPublic09 = true := rfl
theorem notGapAll09 : allL (notGap tableAll) 0 fallbackPublic09 = true := by decide +kernel
theorem belowInAll10 : belowOK [] [] [] fallbackPublic10 = true := rfl
theorem notGapAll10 : allL (notGap tableAll) 0 fallbackPublic10 = true := by decide +kernel
theorem belowInAll11 : belowOK [] [] [] fallbackPublic11 = true := rfl
theorem notGapAll11 : allL (notGap tableAll) 0 fallbackPublic11 = true := by decide +kernel
theorem belowInAll12 : belowOK [] [] [] fallbackPublic12 = true := rfl
theorem notGapAll12 : allL (notGap tableAll) 0 fallbackPublic12 = true := by decide +kernel
theorem belowInAll13 : belowOK [] [] [] fallbackPublic13 = true := rfl
theorem notGapAll13 : allL (notGap tableAll) 0 fallbackPublic13 = true := by decide +kernel
theorem belowInAll14 : belowOK belowAll14 childAll14 gapOfAll14 fallbackPublic14 = true := by decide +kernel
theorem notGapAll14 : allL (notGap tableAll) 0 fallbackPublic14 = true := by decide +kernel
theorem belowInAll15 : belowOK belowAll15 childAll15 gapOfAll15 fallbackPublic15 = true := by decide +kernel
theorem notGapAll15 : allL (notGap tableAll) 0 fallbackPublic15 = true := by decide +kernel
theorem belowInAll16 : belowOK belowAll16 childAll16 gapOfAll16 fallbackPublic16 = true := by decide +kernel
theorem notGapAll16 : allL (notGap tableAll) 0 fallbackPublic16 = true := by decide +kernel
theorem belowInAll17 : belowOK [] [] [] fallbackPublic17 = true := rfl
theorem notGapAll17 : allL (notGap tableAll) 0 fallbackPublic17 = true := by decide +kernel
theorem belowInAll18 : belowOK [] [] [] fallbackPublic18 = true := rfl
theorem notGapAll18 : allL (notGap tableAll) 0 fallbackPublic18 = true := by decide +kernel
theorem belowInAll19 : belowOK [] [] [] fallbackPublic19 = true := rfl
theorem notGapAll19 : allL (notGap tableAll) 0 fallbackPublic19 = true := by decide +kernel
theorem belowInAll20 : belowOK [] [] [] fallbackPublic20 = true := rfl
theorem notGapAll20 : allL (notGap tableAll) 0 fallbackPublic20 = true := by decide +kernel
theorem belowInAll21 : belowOK [] [] [] fallbackPublic21 = true := rfl
theorem notGapAll21 : allL (notGap tableAll) 0 fallbackPublic21 = true := by decide +kernel
theorem belowInAll22 : belowOK belowAll22 childAll22 gapOfAll22 fallbackPublic22 = true := by decide +kernel
theorem notGapAll22 : allL (notGap tableAll) 0 fallbackPublic22 = true := by decide +kernel
theorem belowInAll23 : belowOK [] [] [] fallbackPublic23 = true := rfl
theorem notGapAll23 : allL (notGap tableAll) 0 fallbackPublic23 = true := by decide +kernel
theorem belowInAll24 : belowOK [] [] [] fallbackPublic24 = true := rfl
theorem notGapAll24 : allL (notGap tableAll) 0 fallbackPublic24 = true := by decide +kernel
theorem belowInAll25 : belowOK [] [] [] fallbackPublic25 = true := rfl
theorem notGapAll25 : allL (notGap tableAll) 0 fallbackPublic25 = true := by decide +kernel
theorem belowInAll26 : belowOK [] [] [] fallbackPublic26 = true := rfl
theorem notGapAll26 : allL (notGap tableAll) 0 fallbackPublic26 = true := by decide +kernel
theorem belowInAll27 : belowOK [] [] [] fallbackPublic27 = true := rfl
theorem notGapAll27 : allL (notGap tableAll) 0 fallbackPublic27 = true := by decide +kernel
theorem belowInAll28 : belowOK [] [] [] fallbackPublic28 = true := rfl
theorem notGapAll28 : allL (notGap tableAll) 0 fallbackPublic28 = true := by decide +kernel
theorem belowInAll29 : belowOK [] [] [] fallbackPublic29 = true := rfl
theorem notGapAll29 : allL (notGap tableAll) 0 fallbackPublic29 = true := by decide +kernel
theorem belowInAll30 : belowOK [] [] [] fallbackPublic30 = true := rfl
theorem notGapAll30 : allL (notGap tableAll) 0 fallbackPublic30 = true := by decide +kernel
theorem belowInAll31 : belowOK [] [] [] fallbackPublic31 = true := rfl
theorem notGapAll31 : allL (notGap tableAll) 0 fallbackPublic31 = true := by decide +kernel
theorem belowInAll32 : belowOK [] [] [] fallbackPublic32 = true := rfl
theorem notGapAll32 : allL (notGap tableAll) 0 fallbackPublic32 = true := by decide +kernel
theorem belowInAll33 : belowOK [] [] [] fallbackPublic33 = true := rfl
theorem notGapAll33 : allL (notGap tableAll) 0 fallbackPublic33 = true := by decide +kernel
theorem belowInAll34 : belowOK [] [] [] fallbackPublic34 = true := rfl
theorem notGapAll34 : allL (notGap tableAll) 0 fallbackPublic34 = true := by decide +kernel
theorem belowInAll35 : belowOK [] [] [] fallbackPublic35 = true := rfl
theorem notGapAll35 : allL (notGap tableAll) 0 fallbackPublic35 = true := by decide +kernel
theorem belowInAll36 : belowOK [] [] [] fallbackPublic36 = true := rfl
theorem notGapAll36 : allL (notGap tableAll) 0 fallbackPublic36 = true := by decide +kernel
theorem belowInAll37 : belowOK [] [] [] fallbackPublic37 = true := rfl
theorem notGapAll37 : allL (notGap tableAll) 0 fallbackPublic37 = true := by decide +kernel
theorem belowInAll38 : belowOK belowAll38 childAll38 gapOfAll38 fallbackPrivate00 = true := by decide +kernel
theorem notGapAll38 : allL (notGap tableAll) 0 fallbackPrivate00 = true := by decide +kernel
theorem belowInAll39 : belowOK belowAll39 childAll39 gapOfAll39 fallbackPrivate01 = true := by decide +kernel
theorem notGapAll39 : allL (notGap tableAll) 0 fallbackPrivate01 = true := by decide +kernel
theorem belowInAll40 : belowOK belowAll40 childAll40 gapOfAll40 fallbackPrivate02 = true := by decide +kernel
theorem notGapAll40 : allL (notGap tableAll) 0 fallbackPrivate02 = true := by decide +kernel
theorem belowInAll41 : belowOK belowAll41 childAll41 gapOfAll41 fallbackPrivate03 = true := by decide +kernel
theorem notGapAll41 : allL (notGap tableAll) 0 fallbackPrivate03 = true := by decide +kernel
theorem belowInAll42 : belowOK belowAll42 childAll42 gapOfAll42 fallbackPrivate04 = true := by decide +kernel
theorem notGapAll42 : allL (notGap tableAll) 0 fallbackPrivate04 = true := by decide +kernel
theorem belowInAll43 : belowOK belowAll43 childAll43 gapOfAll43 fallbackPrivate05 = true := by decide +kernel
theorem notGapAll43 : allL (notGap tableAll) 0 fallbackPrivate05 = true := by decide +kernel
theorem belowInAll44 : belowOK belowAll44 childAll44 gapOfAll44 fallbackPrivate06 = true := by decide +kernel
theorem notGapAll44 : allL (notGap tableAll) 0 fallbackPrivate06 = true := by decide +kernel
theorem belowInAll45 : belowOK belowAll45 childAll45 gapOfAll45 fallbackPrivate07 = true := by decide +kernel
theorem notGapAll45 : allL (notGap tableAll) 0 fallbackPrivate07 = true := by decide +kernel
theorem belowInAll46 : belowOK belowAll46 childAll46 gapOfAll46 fallbackPrivate08 = true := by decide +kernel
theorem notGapAll46 : allL (notGap tableAll) 0 fallbackPrivate08 = true := by decide +kernel
theorem belowInAll47 : belowOK belowAll47 childAll47 gapOfAll47 fallbackPrivate09 = true := by decide +kernel
theorem notGapAll47 : allL (notGap tableAll) 0 fallbackPrivate09 = true := by decide +kernel
theorem belowInAll48 : belowOK belowAll48 childAll48 gapOfAll48 fallbackPrivate10 = true := by decide +kernel
theorem notGapAll48 : allL (notGap tableAll) 0 fallbackPrivate10 = true := by decide +kernel
theorem belowInAll49 : belowOK belowAll49 childAll49 gapOfAll49 fallbackPrivate11 = true := by decide +kernel
theorem notGapAll49 : allL (notGap tableAll) 0 fallbackPrivate11 = true := by decide +kernel
theorem belowInAll50 : belowOK belowAll50 childAll50 gapOfAll50 fallbackPrivate12 = true := by decide +kernel
theorem notGapAll50 : allL (notGap tableAll) 0 fallbackPrivate12 = true := by decide +kernel
theorem belowInAll51 : belowOK belowAll51 childAll51 gapOfAll51 fallbackPrivate13 = true := by decide +kernel
theorem notGapAll51 : allL (notGap tableAll) 0 fallbackPrivate13 = true := by decide +kernel
theorem belowInAll52 : belowOK belowAll52 childAll52 gapOfAll52 fallbackPrivate14 = true := by decide +kernel
theorem notGapAll52 : allL (notGap tableAll) 0 fallbackPrivate14 = true := by decide +kernel

theorem belowInAll : BelowOK belowAll [fallbackPublic00, fallbackPublic01, fallbackPublic02, fallbackPublic03, fallbackPublic04, fallbackPublic05, fallbackPublic06, fallbackPublic07, fallbackPublic08, fallbackPublic09, fallbackPublic10, fallbackPublic11, fallbackPublic12, fallbackPublic13, fallbackPublic14, fallbackPublic15, fallbackPublic16, fallbackPublic17, fallbackPublic18, fallbackPublic19, fallbackPublic20, fallbackPublic21, fallbackPublic22, fallbackPublic23, fallbackPublic24, fallbackPublic25, fallbackPublic26, fallbackPublic27, fallbackPublic28, fallbackPublic29, fallbackPublic30, fallbackPublic31, fallbackPublic32, fallbackPublic33, fallbackPublic34, fallbackPublic35, fallbackPublic36, fallbackPublic37, fallbackPrivate00, fallbackPrivate01, fallbackPrivate02, fallbackPrivate03, fallbackPrivate04, fallbackPrivate05, fallbackPrivate06, fallbackPrivate07, fallbackPrivate08, fallbackPrivate09, fallbackPrivate10, fallbackPrivate11, fallbackPrivate12, fallbackPrivate13, fallbackPrivate14] :=
  ⟨belowInAll00, belowInAll01, belowInAll02, belowInAll03, belowInAll04, belowInAll05, belowInAll06, belowInAll07, belowInAll08, belowInAll09, belowInAll10, belowInAll11, belowInAll12, belowInAll13, belowInAll14, belowInAll15, belowInAll16, belowInAll17, belowInAll18, belowInAll19, belowInAll20, belowInAll21, belowInAll22, belowInAll23, belowInAll24, belowInAll25, belowInAll26, belowInAll27, belowInAll28, belowInAll29, belowInAll30, belowInAll31, belowInAll32, belowInAll33, belowInAll34, belowInAll35, belowInAll36, belowInAll37, belowInAll38, belowInAll39, belowInAll40, belowInAll41, belowInAll42, belowInAll43, belowInAll44, belowInAll45, belowInAll46, belowInAll47, belowInAll48, belowInAll49, belowInAll50, belowInAll51, belowInAll52, trivial⟩

theorem sameLengthsAll : SameLengths belowAll = true := by decide +kernel

theorem gapsBelowAll : allL (fun g => elem g (belowAll.flatMap (fun b => b.2.2))) 0 gapsAll = true := by decide +kernel

theorem gapsAtAll : allL (tableAll.gapAt) 0 gapsAll = true := by decide +kernel

theorem notGapsAll : AllOK (notGap tableAll) [fallbackPublic00, fallbackPublic01, fallbackPublic02, fallbackPublic03, fallbackPublic04, fallbackPublic05, fallbackPublic06, fallbackPublic07, fallbackPublic08, fallbackPublic09, fallbackPublic10, fallbackPublic11, fallbackPublic12, fallbackPublic13, fallbackPublic14, fallbackPublic15, fallbackPublic16, fallbackPublic17, fallbackPublic18, fallbackPublic19, fallbackPublic20, fallbackPublic21, fallbackPublic22, fallbackPublic23, fallbackPublic24, fallbackPublic25, fallbackPublic26, fallbackPublic27, fallbackPublic28, fallbackPublic29, fallbackPublic30, fallbackPublic31, fallbackPublic32, fallbackPublic33, fallbackPublic34, fallbackPublic35, fallbackPublic36, fallbackPublic37, fallbackPrivate00, fallbackPrivate01, fallbackPrivate02, fallbackPrivate03, fallbackPrivate04, fallbackPrivate05, fallbackPrivate06, fallbackPrivate07, fallbackPrivate08, fallbackPrivate09, fallbackPrivate10, fallbackPrivate11, fallbackPrivate12, fallbackPrivate13, fallbackPrivate14] :=
  ⟨notGapAll00, notGapAll01, notGapAll02, notGapAll03, notGapAll04, notGapAll05, notGapAll06, notGapAll07, notGapAll08, notGapAll09, notGapAll10, notGapAll11, notGapAll12, notGapAll13, notGapAll14, notGapAll15, notGapAll16, notGapAll17, notGapAll18, notGapAll19, notGapAll20, notGapAll21, notGapAll22, notGapAll23, notGapAll24, notGapAll25, notGapAll26, notGapAll27, notGapAll28, notGapAll29, notGapAll30, notGapAll31, notGapAll32, notGapAll33, notGapAll34, notGapAll35, notGapAll36, notGapAll37, notGapAll38, notGapAll39, notGapAll40, notGapAll41, notGapAll42, notGapAll43, notGapAll44, notGapAll45, notGapAll46, notGapAll47, notGapAll48, notGapAll49, notGapAll50, notGapAll51, notGapAll52, trivial⟩

end Fasttld.Inv
