import Verif.Base
/-
The tables of src/tld.h, written by tools/tld.py. A byte string b is the number whose
base-256 digits are 1 and then b. Lists are cut into parts of 100.
-/
namespace Verif.Tld

/-- HSK_TLD_SIZE (src/tld.h:6). -/
def tableSize : Nat := 1481

def names0 : List Nat := [
  0x01616161,
  0x0161617270,
  0x01616261727468,
  0x01616262,
  0x016162626f7474,
  0x01616262766965,
  0x01616263,
  0x0161626c65,
  0x0161626f6761646f,
  0x016162756468616269,
  0x016163,
  0x0161636164656d79,
  0x01616363656e74757265,
  0x016163636f756e74616e74,
  0x016163636f756e74616e7473,
  0x0161636f,
  0x016163746f72,
  0x016164,
  0x01616473,
  0x016164756c74,
  0x016165,
  0x01616567,
  0x016165726f,
  0x016165746e61,
  0x016166,
  0x0161666c,
  0x01616672696361,
  0x016167,
  0x016167616b68616e,
  0x016167656e6379,
  0x016169,
  0x01616967,
  0x01616972627573,
  0x01616972666f726365,
  0x0161697274656c,
  0x01616b646e,
  0x01616c,
  0x01616c6661726f6d656f,
  0x01616c6962616261,
  0x01616c69706179,
  0x01616c6c66696e616e7a,
  0x01616c6c7374617465,
  0x01616c6c79,
  0x01616c73616365,
  0x01616c73746f6d,
  0x01616d,
  0x01616d617a6f6e,
  0x01616d65726963616e65787072657373,
  0x01616d65726963616e66616d696c79,
  0x01616d6578,
  0x01616d66616d,
  0x01616d696361,
  0x01616d7374657264616d,
  0x01616e616c7974696373,
  0x01616e64726f6964,
  0x01616e7175616e,
  0x01616e7a,
  0x01616f,
  0x01616f6c,
  0x0161706172746d656e7473,
  0x01617070,
  0x016170706c65,
  0x016171,
  0x016171756172656c6c65,
  0x016172,
  0x0161726162,
  0x016172616d636f,
  0x016172636869,
  0x0161726d79,
  0x0161727061,
  0x01617274,
  0x0161727465,
  0x016173,
  0x0161736461,
  0x0161736961,
  0x016173736f636961746573,
  0x016174,
  0x016174686c657461,
  0x016174746f726e6579,
  0x016175,
  0x0161756374696f6e,
  0x0161756469,
  0x0161756469626c65,
  0x01617564696f,
  0x01617573706f7374,
  0x01617574686f72,
  0x016175746f,
  0x016175746f73,
  0x01617669616e6361,
  0x016177,
  0x01617773,
  0x016178,
  0x01617861,
  0x01617a,
  0x01617a757265,
  0x016261,
  0x0162616279,
  0x016261696475,
  0x0162616e616d6578,
  0x0162616e616e6172657075626c6963]
def names1 : List Nat := [
  0x0162616e64,
  0x0162616e6b,
  0x01626172,
  0x0162617263656c6f6e61,
  0x01626172636c617963617264,
  0x01626172636c617973,
  0x0162617265666f6f74,
  0x016261726761696e73,
  0x016261736562616c6c,
  0x016261736b657462616c6c,
  0x0162617568617573,
  0x0162617965726e,
  0x016262,
  0x01626263,
  0x01626274,
  0x0162627661,
  0x01626367,
  0x0162636e,
  0x016264,
  0x016265,
  0x016265617473,
  0x01626561757479,
  0x0162656572,
  0x0162656e746c6579,
  0x016265726c696e,
  0x0162657374,
  0x0162657374627579,
  0x01626574,
  0x016266,
  0x016267,
  0x016268,
  0x01626861727469,
  0x016269,
  0x016269626c65,
  0x01626964,
  0x0162696b65,
  0x0162696e67,
  0x0162696e676f,
  0x0162696f,
  0x0162697a,
  0x01626a,
  0x01626c61636b,
  0x01626c61636b667269646179,
  0x01626c6f636b627573746572,
  0x01626c6f67,
  0x01626c6f6f6d62657267,
  0x01626c7565,
  0x01626d,
  0x01626d73,
  0x01626d77,
  0x01626e,
  0x01626e7070617269626173,
  0x01626f,
  0x01626f617473,
  0x01626f656872696e676572,
  0x01626f6661,
  0x01626f6d,
  0x01626f6e64,
  0x01626f6f,
  0x01626f6f6b,
  0x01626f6f6b696e67,
  0x01626f736368,
  0x01626f7374696b,
  0x01626f73746f6e,
  0x01626f74,
  0x01626f757469717565,
  0x01626f78,
  0x016272,
  0x01627261646573636f,
  0x0162726964676573746f6e65,
  0x0162726f6164776179,
  0x0162726f6b6572,
  0x0162726f74686572,
  0x016272757373656c73,
  0x016273,
  0x016274,
  0x016275696c64,
  0x016275696c64657273,
  0x01627573696e657373,
  0x01627579,
  0x0162757a7a,
  0x016276,
  0x016277,
  0x016279,
  0x01627a,
  0x01627a68,
  0x016361,
  0x01636162,
  0x0163616665,
  0x0163616c,
  0x0163616c6c,
  0x0163616c76696e6b6c65696e,
  0x0163616d,
  0x0163616d657261,
  0x0163616d70,
  0x0163616e6f6e,
  0x0163617065746f776e,
  0x016361706974616c,
  0x016361706974616c6f6e65,
  0x01636172]
def names2 : List Nat := [
  0x016361726176616e,
  0x016361726473,
  0x0163617265,
  0x01636172656572,
  0x0163617265657273,
  0x0163617273,
  0x0163617361,
  0x0163617365,
  0x0163617368,
  0x01636173696e6f,
  0x01636174,
  0x016361746572696e67,
  0x01636174686f6c6963,
  0x01636261,
  0x0163626e,
  0x0163627265,
  0x01636273,
  0x016363,
  0x016364,
  0x0163656e746572,
  0x0163656f,
  0x016365726e,
  0x016366,
  0x01636661,
  0x01636664,
  0x016367,
  0x016368,
  0x016368616e656c,
  0x016368616e6e656c,
  0x0163686172697479,
  0x016368617365,
  0x0163686174,
  0x016368656170,
  0x016368696e746169,
  0x016368726973746d6173,
  0x016368726f6d65,
  0x01636875726368,
  0x016369,
  0x016369707269616e69,
  0x01636972636c65,
  0x01636973636f,
  0x016369746164656c,
  0x0163697469,
  0x016369746963,
  0x0163697479,
  0x016369747965617473,
  0x01636b,
  0x01636c,
  0x01636c61696d73,
  0x01636c65616e696e67,
  0x01636c69636b,
  0x01636c696e6963,
  0x01636c696e69717565,
  0x01636c6f7468696e67,
  0x01636c6f7564,
  0x01636c7562,
  0x01636c75626d6564,
  0x01636d,
  0x01636e,
  0x01636f,
  0x01636f616368,
  0x01636f646573,
  0x01636f66666565,
  0x01636f6c6c656765,
  0x01636f6c6f676e65,
  0x01636f6d,
  0x01636f6d63617374,
  0x01636f6d6d62616e6b,
  0x01636f6d6d756e697479,
  0x01636f6d70616e79,
  0x01636f6d70617265,
  0x01636f6d7075746572,
  0x01636f6d736563,
  0x01636f6e646f73,
  0x01636f6e737472756374696f6e,
  0x01636f6e73756c74696e67,
  0x01636f6e74616374,
  0x01636f6e74726163746f7273,
  0x01636f6f6b696e67,
  0x01636f6f6b696e676368616e6e656c,
  0x01636f6f6c,
  0x01636f6f70,
  0x01636f7273696361,
  0x01636f756e747279,
  0x01636f75706f6e,
  0x01636f75706f6e73,
  0x01636f7572736573,
  0x01637061,
  0x016372,
  0x01637265646974,
  0x0163726564697463617264,
  0x01637265646974756e696f6e,
  0x01637269636b6574,
  0x0163726f776e,
  0x01637273,
  0x01637275697365,
  0x0163727569736573,
  0x016375,
  0x0163756973696e656c6c61,
  0x016376]
def names3 : List Nat := [
  0x016377,
  0x016378,
  0x016379,
  0x0163796d7275,
  0x0163796f75,
  0x01637a,
  0x016461627572,
  0x01646164,
  0x0164616e6365,
  0x0164617461,
  0x0164617465,
  0x01646174696e67,
  0x0164617473756e,
  0x01646179,
  0x0164636c6b,
  0x01646473,
  0x016465,
  0x016465616c,
  0x016465616c6572,
  0x016465616c73,
  0x01646567726565,
  0x0164656c6976657279,
  0x0164656c6c,
  0x0164656c6f69747465,
  0x0164656c7461,
  0x0164656d6f63726174,
  0x0164656e74616c,
  0x0164656e74697374,
  0x0164657369,
  0x0164657369676e,
  0x01646576,
  0x0164686c,
  0x016469616d6f6e6473,
  0x0164696574,
  0x016469676974616c,
  0x01646972656374,
  0x016469726563746f7279,
  0x01646973636f756e74,
  0x01646973636f766572,
  0x0164697368,
  0x01646979,
  0x01646a,
  0x01646b,
  0x01646d,
  0x01646e70,
  0x01646f,
  0x01646f6373,
  0x01646f63746f72,
  0x01646f67,
  0x01646f6d61696e73,
  0x01646f74,
  0x01646f776e6c6f6164,
  0x016472697665,
  0x01647476,
  0x016475626169,
  0x0164756e6c6f70,
  0x016475706f6e74,
  0x0164757262616e,
  0x0164766167,
  0x01647672,
  0x01647a,
  0x016561727468,
  0x01656174,
  0x016563,
  0x0165636f,
  0x016564656b61,
  0x01656475,
  0x01656475636174696f6e,
  0x016565,
  0x016567,
  0x01656d61696c,
  0x01656d6572636b,
  0x01656e65726779,
  0x01656e67696e656572,
  0x01656e67696e656572696e67,
  0x01656e746572707269736573,
  0x016570736f6e,
  0x0165717569706d656e74,
  0x016572,
  0x016572696373736f6e,
  0x0165726e69,
  0x016573,
  0x01657371,
  0x01657374617465,
  0x016574,
  0x0165746973616c6174,
  0x016575,
  0x016575726f766973696f6e,
  0x01657573,
  0x016576656e7473,
  0x0165786368616e6765,
  0x01657870657274,
  0x016578706f736564,
  0x0165787072657373,
  0x0165787472617370616365,
  0x0166616765,
  0x016661696c,
  0x016661697277696e6473,
  0x016661697468,
  0x0166616d696c79]
def names4 : List Nat := [
  0x0166616e,
  0x0166616e73,
  0x016661726d,
  0x016661726d657273,
  0x0166617368696f6e,
  0x0166617374,
  0x016665646578,
  0x01666565646261636b,
  0x0166657272617269,
  0x016665727265726f,
  0x016669,
  0x0166696174,
  0x01666964656c697479,
  0x016669646f,
  0x0166696c6d,
  0x0166696e616c,
  0x0166696e616e6365,
  0x0166696e616e6369616c,
  0x0166697265,
  0x016669726573746f6e65,
  0x016669726d64616c65,
  0x0166697368,
  0x0166697368696e67,
  0x01666974,
  0x016669746e657373,
  0x01666a,
  0x01666b,
  0x01666c69636b72,
  0x01666c6967687473,
  0x01666c6972,
  0x01666c6f72697374,
  0x01666c6f77657273,
  0x01666c79,
  0x01666d,
  0x01666f,
  0x01666f6f,
  0x01666f6f64,
  0x01666f6f646e6574776f726b,
  0x01666f6f7462616c6c,
  0x01666f7264,
  0x01666f726578,
  0x01666f7273616c65,
  0x01666f72756d,
  0x01666f756e646174696f6e,
  0x01666f78,
  0x016672,
  0x0166726565,
  0x0166726573656e697573,
  0x0166726c,
  0x0166726f67616e73,
  0x0166726f6e74646f6f72,
  0x0166726f6e74696572,
  0x01667472,
  0x0166756a69747375,
  0x0166756e,
  0x0166756e64,
  0x016675726e6974757265,
  0x01667574626f6c,
  0x01667969,
  0x016761,
  0x0167616c,
  0x0167616c6c657279,
  0x0167616c6c6f,
  0x0167616c6c7570,
  0x0167616d65,
  0x0167616d6573,
  0x01676170,
  0x0167617264656e,
  0x01676179,
  0x016762,
  0x016762697a,
  0x016764,
  0x0167646e,
  0x016765,
  0x01676561,
  0x0167656e74,
  0x0167656e74696e67,
  0x0167656f726765,
  0x016766,
  0x016767,
  0x0167676565,
  0x016768,
  0x016769,
  0x0167696674,
  0x016769667473,
  0x016769766573,
  0x01676976696e67,
  0x01676c,
  0x01676c617373,
  0x01676c65,
  0x01676c6f62616c,
  0x01676c6f626f,
  0x01676d,
  0x01676d61696c,
  0x01676d6268,
  0x01676d6f,
  0x01676d78,
  0x01676e,
  0x01676f6461646479,
  0x01676f6c64]
def names5 : List Nat := [
  0x01676f6c64706f696e74,
  0x01676f6c66,
  0x01676f6f,
  0x01676f6f6479656172,
  0x01676f6f67,
  0x01676f6f676c65,
  0x01676f70,
  0x01676f74,
  0x01676f76,
  0x016770,
  0x016771,
  0x016772,
  0x01677261696e676572,
  0x016772617068696373,
  0x01677261746973,
  0x01677265656e,
  0x016772697065,
  0x0167726f63657279,
  0x0167726f7570,
  0x016773,
  0x016774,
  0x016775,
  0x01677561726469616e,
  0x016775636369,
  0x0167756765,
  0x016775696465,
  0x0167756974617273,
  0x0167757275,
  0x016777,
  0x016779,
  0x0168616972,
  0x0168616d62757267,
  0x0168616e676f7574,
  0x0168617573,
  0x0168626f,
  0x0168646663,
  0x016864666362616e6b,
  0x016865616c7468,
  0x016865616c746863617265,
  0x0168656c70,
  0x0168656c73696e6b69,
  0x0168657265,
  0x016865726d6573,
  0x0168677476,
  0x01686970686f70,
  0x01686973616d69747375,
  0x0168697461636869,
  0x01686976,
  0x01686b,
  0x01686b74,
  0x01686d,
  0x01686e,
  0x01686f636b6579,
  0x01686f6c64696e6773,
  0x01686f6c69646179,
  0x01686f6d656465706f74,
  0x01686f6d65676f6f6473,
  0x01686f6d6573,
  0x01686f6d6573656e7365,
  0x01686f6e6461,
  0x01686f727365,
  0x01686f73706974616c,
  0x01686f7374,
  0x01686f7374696e67,
  0x01686f74,
  0x01686f74656c6573,
  0x01686f74656c73,
  0x01686f746d61696c,
  0x01686f757365,
  0x01686f77,
  0x016872,
  0x0168736263,
  0x016874,
  0x016875,
  0x01687567686573,
  0x016879617474,
  0x016879756e646169,
  0x0169626d,
  0x0169636263,
  0x01696365,
  0x01696375,
  0x016964,
  0x016965,
  0x0169656565,
  0x0169666d,
  0x01696b616e6f,
  0x01696c,
  0x01696d,
  0x01696d616d6174,
  0x01696d6462,
  0x01696d6d6f,
  0x01696d6d6f62696c69656e,
  0x01696e,
  0x01696e63,
  0x01696e6475737472696573,
  0x01696e66696e697469,
  0x01696e666f,
  0x01696e67,
  0x01696e6b,
  0x01696e73746974757465]
def names6 : List Nat := [
  0x01696e737572616e6365,
  0x01696e73757265,
  0x01696e74,
  0x01696e7465726e6174696f6e616c,
  0x01696e74756974,
  0x01696e766573746d656e7473,
  0x01696f,
  0x0169706972616e6761,
  0x016971,
  0x016972,
  0x016972697368,
  0x016973,
  0x0169736d61696c69,
  0x01697374,
  0x01697374616e62756c,
  0x016974,
  0x0169746175,
  0x01697476,
  0x016a6167756172,
  0x016a617661,
  0x016a6362,
  0x016a65,
  0x016a656570,
  0x016a65747a74,
  0x016a6577656c7279,
  0x016a696f,
  0x016a6c6c,
  0x016a6d,
  0x016a6d70,
  0x016a6e6a,
  0x016a6f,
  0x016a6f6273,
  0x016a6f62757267,
  0x016a6f74,
  0x016a6f79,
  0x016a70,
  0x016a706d6f7267616e,
  0x016a707273,
  0x016a7565676f73,
  0x016a756e69706572,
  0x016b617566656e,
  0x016b646469,
  0x016b65,
  0x016b65727279686f74656c73,
  0x016b657272796c6f67697374696373,
  0x016b6572727970726f70657274696573,
  0x016b6668,
  0x016b67,
  0x016b68,
  0x016b69,
  0x016b6961,
  0x016b696473,
  0x016b696d,
  0x016b696e646572,
  0x016b696e646c65,
  0x016b69746368656e,
  0x016b697769,
  0x016b6d,
  0x016b6e,
  0x016b6f656c6e,
  0x016b6f6d61747375,
  0x016b6f73686572,
  0x016b70,
  0x016b706d67,
  0x016b706e,
  0x016b72,
  0x016b7264,
  0x016b726564,
  0x016b756f6b67726f7570,
  0x016b77,
  0x016b79,
  0x016b796f746f,
  0x016b7a,
  0x016c61,
  0x016c616361697861,
  0x016c616d626f726768696e69,
  0x016c616d6572,
  0x016c616e636173746572,
  0x016c616e636961,
  0x016c616e64,
  0x016c616e64726f766572,
  0x016c616e78657373,
  0x016c6173616c6c65,
  0x016c6174,
  0x016c6174696e6f,
  0x016c6174726f6265,
  0x016c6177,
  0x016c6177796572,
  0x016c62,
  0x016c63,
  0x016c6473,
  0x016c65617365,
  0x016c65636c657263,
  0x016c656672616b,
  0x016c6567616c,
  0x016c65676f,
  0x016c65787573,
  0x016c676274,
  0x016c69,
  0x016c69646c]
def names7 : List Nat := [
  0x016c696665,
  0x016c696665696e737572616e6365,
  0x016c6966657374796c65,
  0x016c69676874696e67,
  0x016c696b65,
  0x016c696c6c79,
  0x016c696d69746564,
  0x016c696d6f,
  0x016c696e636f6c6e,
  0x016c696e6465,
  0x016c696e6b,
  0x016c69707379,
  0x016c697665,
  0x016c6976696e67,
  0x016c6b,
  0x016c6c63,
  0x016c6c70,
  0x016c6f616e,
  0x016c6f616e73,
  0x016c6f636b6572,
  0x016c6f637573,
  0x016c6f6c,
  0x016c6f6e646f6e,
  0x016c6f747465,
  0x016c6f74746f,
  0x016c6f7665,
  0x016c706c,
  0x016c706c66696e616e6369616c,
  0x016c72,
  0x016c73,
  0x016c74,
  0x016c7464,
  0x016c746461,
  0x016c75,
  0x016c756e646265636b,
  0x016c757865,
  0x016c7578757279,
  0x016c76,
  0x016c79,
  0x016d61,
  0x016d61637973,
  0x016d6164726964,
  0x016d616966,
  0x016d6169736f6e,
  0x016d616b657570,
  0x016d616e,
  0x016d616e6167656d656e74,
  0x016d616e676f,
  0x016d6170,
  0x016d61726b6574,
  0x016d61726b6574696e67,
  0x016d61726b657473,
  0x016d617272696f7474,
  0x016d61727368616c6c73,
  0x016d61736572617469,
  0x016d617474656c,
  0x016d6261,
  0x016d63,
  0x016d636b696e736579,
  0x016d64,
  0x016d65,
  0x016d6564,
  0x016d65646961,
  0x016d656574,
  0x016d656c626f75726e65,
  0x016d656d65,
  0x016d656d6f7269616c,
  0x016d656e,
  0x016d656e75,
  0x016d6572636b6d7364,
  0x016d67,
  0x016d68,
  0x016d69616d69,
  0x016d6963726f736f6674,
  0x016d696c,
  0x016d696e69,
  0x016d696e74,
  0x016d6974,
  0x016d697473756269736869,
  0x016d6b,
  0x016d6c,
  0x016d6c62,
  0x016d6c73,
  0x016d6d,
  0x016d6d61,
  0x016d6e,
  0x016d6f,
  0x016d6f6269,
  0x016d6f62696c65,
  0x016d6f6461,
  0x016d6f65,
  0x016d6f69,
  0x016d6f6d,
  0x016d6f6e617368,
  0x016d6f6e6579,
  0x016d6f6e73746572,
  0x016d6f726d6f6e,
  0x016d6f727467616765,
  0x016d6f73636f77,
  0x016d6f746f]
def names8 : List Nat := [
  0x016d6f746f726379636c6573,
  0x016d6f76,
  0x016d6f766965,
  0x016d70,
  0x016d71,
  0x016d72,
  0x016d73,
  0x016d7364,
  0x016d74,
  0x016d746e,
  0x016d7472,
  0x016d75,
  0x016d757365756d,
  0x016d75736963,
  0x016d757475616c,
  0x016d76,
  0x016d77,
  0x016d78,
  0x016d79,
  0x016d7a,
  0x016e61,
  0x016e6162,
  0x016e61676f7961,
  0x016e616d65,
  0x016e6174757261,
  0x016e617679,
  0x016e6261,
  0x016e63,
  0x016e65,
  0x016e6563,
  0x016e6574,
  0x016e657462616e6b,
  0x016e6574666c6978,
  0x016e6574776f726b,
  0x016e657573746172,
  0x016e6577,
  0x016e657773,
  0x016e657874,
  0x016e657874646972656374,
  0x016e65787573,
  0x016e66,
  0x016e666c,
  0x016e67,
  0x016e676f,
  0x016e686b,
  0x016e69,
  0x016e69636f,
  0x016e696b65,
  0x016e696b6f6e,
  0x016e696e6a61,
  0x016e697373616e,
  0x016e6973736179,
  0x016e6c,
  0x016e6f,
  0x016e6f6b6961,
  0x016e6f7274687765737465726e6d757475616c,
  0x016e6f72746f6e,
  0x016e6f77,
  0x016e6f7772757a,
  0x016e6f777476,
  0x016e70,
  0x016e72,
  0x016e7261,
  0x016e7277,
  0x016e7474,
  0x016e75,
  0x016e7963,
  0x016e7a,
  0x016f6269,
  0x016f62736572766572,
  0x016f6666696365,
  0x016f6b696e617761,
  0x016f6c6179616e,
  0x016f6c6179616e67726f7570,
  0x016f6c646e617679,
  0x016f6c6c6f,
  0x016f6d,
  0x016f6d656761,
  0x016f6e65,
  0x016f6e67,
  0x016f6e6c,
  0x016f6e6c696e65,
  0x016f6f6f,
  0x016f70656e,
  0x016f7261636c65,
  0x016f72616e6765,
  0x016f7267,
  0x016f7267616e6963,
  0x016f726967696e73,
  0x016f73616b61,
  0x016f7473756b61,
  0x016f7474,
  0x016f7668,
  0x017061,
  0x0170616765,
  0x0170616e61736f6e6963,
  0x017061726973,
  0x0170617273,
  0x01706172746e657273,
  0x017061727473]
def names9 : List Nat := [
  0x017061727479,
  0x01706173736167656e73,
  0x01706179,
  0x0170636377,
  0x017065,
  0x01706574,
  0x017066,
  0x017066697a6572,
  0x017067,
  0x017068,
  0x01706861726d616379,
  0x01706864,
  0x017068696c697073,
  0x0170686f6e65,
  0x0170686f746f,
  0x0170686f746f677261706879,
  0x0170686f746f73,
  0x0170687973696f,
  0x0170696373,
  0x01706963746574,
  0x017069637475726573,
  0x01706964,
  0x0170696e,
  0x0170696e67,
  0x0170696e6b,
  0x0170696f6e656572,
  0x0170697a7a61,
  0x01706b,
  0x01706c,
  0x01706c616365,
  0x01706c6179,
  0x01706c617973746174696f6e,
  0x01706c756d62696e67,
  0x01706c7573,
  0x01706d,
  0x01706e,
  0x01706e63,
  0x01706f686c,
  0x01706f6b6572,
  0x01706f6c69746965,
  0x01706f726e,
  0x01706f7374,
  0x017072,
  0x017072616d6572696361,
  0x017072617869,
  0x017072657373,
  0x017072696d65,
  0x0170726f,
  0x0170726f64,
  0x0170726f64756374696f6e73,
  0x0170726f66,
  0x0170726f6772657373697665,
  0x0170726f6d6f,
  0x0170726f70657274696573,
  0x0170726f7065727479,
  0x0170726f74656374696f6e,
  0x01707275,
  0x0170727564656e7469616c,
  0x017073,
  0x017074,
  0x01707562,
  0x017077,
  0x01707763,
  0x017079,
  0x017161,
  0x0171706f6e,
  0x01717565626563,
  0x017175657374,
  0x01726163696e67,
  0x01726164696f,
  0x017265,
  0x0172656164,
  0x017265616c657374617465,
  0x017265616c746f72,
  0x017265616c7479,
  0x0172656369706573,
  0x01726564,
  0x0172656473746f6e65,
  0x01726564756d6272656c6c61,
  0x017265686162,
  0x017265697365,
  0x0172656973656e,
  0x0172656974,
  0x0172656c69616e6365,
  0x0172656e,
  0x0172656e74,
  0x0172656e74616c73,
  0x01726570616972,
  0x017265706f7274,
  0x0172657075626c6963616e,
  0x0172657374,
  0x0172657374617572616e74,
  0x01726576696577,
  0x0172657669657773,
  0x01726578726f7468,
  0x0172696368,
  0x01726963686172646c69,
  0x017269636f68,
  0x0172696c,
  0x0172696f]
def names10 : List Nat := [
  0x01726970,
  0x01726f,
  0x01726f63686572,
  0x01726f636b73,
  0x01726f64656f,
  0x01726f67657273,
  0x01726f6f6d,
  0x017273,
  0x0172737670,
  0x017275,
  0x017275676279,
  0x0172756872,
  0x0172756e,
  0x017277,
  0x01727765,
  0x017279756b7975,
  0x017361,
  0x01736161726c616e64,
  0x0173616665,
  0x01736166657479,
  0x0173616b757261,
  0x0173616c65,
  0x0173616c6f6e,
  0x0173616d73636c7562,
  0x0173616d73756e67,
  0x0173616e6476696b,
  0x0173616e6476696b636f726f6d616e74,
  0x0173616e6f6669,
  0x01736170,
  0x017361726c,
  0x01736173,
  0x0173617665,
  0x017361786f,
  0x017362,
  0x01736269,
  0x01736273,
  0x017363,
  0x01736361,
  0x01736362,
  0x01736368616566666c6572,
  0x017363686d696474,
  0x017363686f6c61727368697073,
  0x017363686f6f6c,
  0x01736368756c65,
  0x017363687761727a,
  0x01736369656e6365,
  0x0173636f74,
  0x017364,
  0x017365,
  0x01736561726368,
  0x0173656174,
  0x01736563757265,
  0x017365637572697479,
  0x017365656b,
  0x0173656c656374,
  0x0173656e6572,
  0x017365727669636573,
  0x01736576656e,
  0x01736577,
  0x01736578,
  0x0173657879,
  0x01736672,
  0x017367,
  0x017368,
  0x017368616e6772696c61,
  0x017368617270,
  0x0173686177,
  0x017368656c6c,
  0x0173686961,
  0x017368696b736861,
  0x0173686f6573,
  0x0173686f70,
  0x0173686f7070696e67,
  0x0173686f756a69,
  0x0173686f77,
  0x0173686f7774696d65,
  0x017369,
  0x0173696c6b,
  0x0173696e61,
  0x0173696e676c6573,
  0x0173697465,
  0x01736a,
  0x01736b,
  0x01736b69,
  0x01736b696e,
  0x01736b79,
  0x01736b797065,
  0x01736c,
  0x01736c696e67,
  0x01736d,
  0x01736d617274,
  0x01736d696c65,
  0x01736e,
  0x01736e6366,
  0x01736f,
  0x01736f63636572,
  0x01736f6369616c,
  0x01736f667462616e6b,
  0x01736f667477617265,
  0x01736f6875]
def names11 : List Nat := [
  0x01736f6c6172,
  0x01736f6c7574696f6e73,
  0x01736f6e67,
  0x01736f6e79,
  0x01736f79,
  0x01737061,
  0x017370616365,
  0x0173706f7274,
  0x0173706f74,
  0x017372,
  0x0173726c,
  0x017373,
  0x017374,
  0x017374616461,
  0x01737461706c6573,
  0x0173746172,
  0x01737461746562616e6b,
  0x0173746174656661726d,
  0x01737463,
  0x0173746367726f7570,
  0x0173746f636b686f6c6d,
  0x0173746f72616765,
  0x0173746f7265,
  0x0173747265616d,
  0x0173747564696f,
  0x017374756479,
  0x017374796c65,
  0x017375,
  0x017375636b73,
  0x01737570706c696573,
  0x01737570706c79,
  0x01737570706f7274,
  0x0173757266,
  0x0173757267657279,
  0x0173757a756b69,
  0x017376,
  0x01737761746368,
  0x017377697373,
  0x017378,
  0x017379,
  0x017379646e6579,
  0x0173797374656d73,
  0x01737a,
  0x01746162,
  0x01746169706569,
  0x0174616c6b,
  0x0174616f62616f,
  0x01746172676574,
  0x01746174616d6f746f7273,
  0x017461746172,
  0x01746174746f6f,
  0x01746178,
  0x0174617869,
  0x017463,
  0x01746369,
  0x017464,
  0x0174646b,
  0x017465616d,
  0x0174656368,
  0x01746563686e6f6c6f6779,
  0x0174656c,
  0x0174656d6173656b,
  0x0174656e6e6973,
  0x0174657661,
  0x017466,
  0x017467,
  0x017468,
  0x01746864,
  0x0174686561746572,
  0x0174686561747265,
  0x0174696161,
  0x017469636b657473,
  0x017469656e6461,
  0x0174696666616e79,
  0x0174697073,
  0x017469726573,
  0x017469726f6c,
  0x01746a,
  0x01746a6d617878,
  0x01746a78,
  0x01746b,
  0x01746b6d617878,
  0x01746c,
  0x01746d,
  0x01746d616c6c,
  0x01746e,
  0x01746f,
  0x01746f646179,
  0x01746f6b796f,
  0x01746f6f6c73,
  0x01746f70,
  0x01746f726179,
  0x01746f7368696261,
  0x01746f74616c,
  0x01746f757273,
  0x01746f776e,
  0x01746f796f7461,
  0x01746f7973,
  0x017472,
  0x017472616465]
def names12 : List Nat := [
  0x0174726164696e67,
  0x01747261696e696e67,
  0x0174726176656c,
  0x0174726176656c6368616e6e656c,
  0x0174726176656c657273,
  0x0174726176656c657273696e737572616e6365,
  0x017472757374,
  0x01747276,
  0x017474,
  0x0174756265,
  0x01747569,
  0x0174756e6573,
  0x017475736875,
  0x017476,
  0x01747673,
  0x017477,
  0x01747a,
  0x017561,
  0x017562616e6b,
  0x01756273,
  0x017567,
  0x01756b,
  0x01756e69636f6d,
  0x01756e6976657273697479,
  0x01756e6f,
  0x01756f6c,
  0x01757073,
  0x017573,
  0x017579,
  0x01757a,
  0x017661,
  0x017661636174696f6e73,
  0x0176616e61,
  0x0176616e6775617264,
  0x017663,
  0x017665,
  0x017665676173,
  0x0176656e7475726573,
  0x01766572697369676e,
  0x01766572736963686572756e67,
  0x01766574,
  0x017667,
  0x017669,
  0x017669616a6573,
  0x01766964656f,
  0x01766967,
  0x0176696b696e67,
  0x0176696c6c6173,
  0x0176696e,
  0x01766970,
  0x0176697267696e,
  0x0176697361,
  0x01766973696f6e,
  0x0176697661,
  0x017669766f,
  0x01766c61616e646572656e,
  0x01766e,
  0x01766f646b61,
  0x01766f6c6b73776167656e,
  0x01766f6c766f,
  0x01766f7465,
  0x01766f74696e67,
  0x01766f746f,
  0x01766f79616765,
  0x017675,
  0x017675656c6f73,
  0x0177616c6573,
  0x0177616c6d617274,
  0x0177616c746572,
  0x0177616e67,
  0x0177616e67676f75,
  0x017761746368,
  0x0177617463686573,
  0x0177656174686572,
  0x01776561746865726368616e6e656c,
  0x0177656263616d,
  0x017765626572,
  0x0177656273697465,
  0x01776564,
  0x0177656464696e67,
  0x01776569626f,
  0x0177656972,
  0x017766,
  0x0177686f7377686f,
  0x017769656e,
  0x0177696b69,
  0x0177696c6c69616d68696c6c,
  0x0177696e,
  0x0177696e646f7773,
  0x0177696e65,
  0x0177696e6e657273,
  0x01776d65,
  0x01776f6c746572736b6c75776572,
  0x01776f6f6473696465,
  0x01776f726b,
  0x01776f726b73,
  0x01776f726c64,
  0x01776f77,
  0x017773,
  0x01777463]
def names13 : List Nat := [
  0x01777466,
  0x0178626f78,
  0x017865726f78,
  0x017866696e697479,
  0x0178696875616e,
  0x0178696e,
  0x01786e2d2d31316234633364,
  0x01786e2d2d31636b32653162,
  0x01786e2d2d31717177323361,
  0x01786e2d2d327363726a3963,
  0x01786e2d2d333072723779,
  0x01786e2d2d3362737430306d,
  0x01786e2d2d33647334343367,
  0x01786e2d2d3365306237303765,
  0x01786e2d2d336863726a3963,
  0x01786e2d2d33707875386b,
  0x01786e2d2d34326332643961,
  0x01786e2d2d343562723563796c,
  0x01786e2d2d343562726a3963,
  0x01786e2d2d343571313163,
  0x01786e2d2d346462726b306365,
  0x01786e2d2d34676272696d,
  0x01786e2d2d35346237667461306363,
  0x01786e2d2d35357177343267,
  0x01786e2d2d353571783564,
  0x01786e2d2d35737533346a39333662677367,
  0x01786e2d2d35747a6d3567,
  0x01786e2d2d3666727a383267,
  0x01786e2d2d3671713938366233786c,
  0x01786e2d2d3830616478686b73,
  0x01786e2d2d3830616f323161,
  0x01786e2d2d38306171656364723161,
  0x01786e2d2d3830617365686462,
  0x01786e2d2d383061737767,
  0x01786e2d2d3879306130363361,
  0x01786e2d2d393061336163,
  0x01786e2d2d39306165,
  0x01786e2d2d3930616973,
  0x01786e2d2d396462713261,
  0x01786e2d2d396574353275,
  0x01786e2d2d396b7274303061,
  0x01786e2d2d62347736303566657264,
  0x01786e2d2d62636b31623961356472653463,
  0x01786e2d2d6331617667,
  0x01786e2d2d633262723767,
  0x01786e2d2d63636b32623362,
  0x01786e2d2d63636b776378657464,
  0x01786e2d2d636734626b69,
  0x01786e2d2d636c63686330656130623267326139676364,
  0x01786e2d2d637a7236393462,
  0x01786e2d2d637a72733074,
  0x01786e2d2d637a72753264,
  0x01786e2d2d643161636a3362,
  0x01786e2d2d6431616c66,
  0x01786e2d2d6531613463,
  0x01786e2d2d65636b766474633964,
  0x01786e2d2d65667679383868,
  0x01786e2d2d6663743432396b,
  0x01786e2d2d6668626569,
  0x01786e2d2d66697132323863356873,
  0x01786e2d2d666971363462,
  0x01786e2d2d666971733873,
  0x01786e2d2d6669717a3973,
  0x01786e2d2d666a7137323061,
  0x01786e2d2d666c7733353165,
  0x01786e2d2d667063726a39633364,
  0x01786e2d2d667a63326339653263,
  0x01786e2d2d667a7973386436397576676d,
  0x01786e2d2d67327878343863,
  0x01786e2d2d67636b7233663066,
  0x01786e2d2d676563726a3963,
  0x01786e2d2d676b3361743165,
  0x01786e2d2d68326272656733657665,
  0x01786e2d2d683262726a3963,
  0x01786e2d2d683262726a39633863,
  0x01786e2d2d68787438313465,
  0x01786e2d2d6931623662316136613265,
  0x01786e2d2d696d723531336e,
  0x01786e2d2d696f30613769,
  0x01786e2d2d6a31616566,
  0x01786e2d2d6a31616d68,
  0x01786e2d2d6a367731393367,
  0x01786e2d2d6a6c713438306e327267,
  0x01786e2d2d6a76723138396d,
  0x01786e2d2d6b63727837376431783461,
  0x01786e2d2d6b707277313364,
  0x01786e2d2d6b707279353764,
  0x01786e2d2d6b7075743369,
  0x01786e2d2d6c31616363,
  0x01786e2d2d6c6762626174316164386a,
  0x01786e2d2d6d67623961776266,
  0x01786e2d2d6d676261336133656a74,
  0x01786e2d2d6d67626133613466313661,
  0x01786e2d2d6d67626137633062626e3061,
  0x01786e2d2d6d676261616b6337647666,
  0x01786e2d2d6d676261616d37613868,
  0x01786e2d2d6d67626162326264,
  0x01786e2d2d6d67626168316133686a6b7264,
  0x01786e2d2d6d6762616939617a677170366a,
  0x01786e2d2d6d676261796837677061]
def names14 : List Nat := [
  0x01786e2d2d6d676262683161,
  0x01786e2d2d6d676262683161373165,
  0x01786e2d2d6d676263306139617a6367,
  0x01786e2d2d6d6762636137647a646f,
  0x01786e2d2d6d6762637071366770613161,
  0x01786e2d2d6d676265727034613564346172,
  0x01786e2d2d6d67626775383261,
  0x01786e2d2d6d676269346563657870,
  0x01786e2d2d6d6762706c326668,
  0x01786e2d2d6d67627433646864,
  0x01786e2d2d6d676274783262,
  0x01786e2d2d6d676278346364306162,
  0x01786e2d2d6d697838393166,
  0x01786e2d2d6d6b316275343463,
  0x01786e2d2d6d787471316d,
  0x01786e2d2d6e67626335617a64,
  0x01786e2d2d6e67626539653061,
  0x01786e2d2d6e67627278,
  0x01786e2d2d6e6f6465,
  0x01786e2d2d6e71763766,
  0x01786e2d2d6e71763766733030656d61,
  0x01786e2d2d6e797179323661,
  0x01786e2d2d6f3363773468,
  0x01786e2d2d6f6762706638666c,
  0x01786e2d2d6f747537393664,
  0x01786e2d2d7031616366,
  0x01786e2d2d70316169,
  0x01786e2d2d70676273306468,
  0x01786e2d2d707373793275,
  0x01786e2d2d713763653661,
  0x01786e2d2d71396a79623463,
  0x01786e2d2d71636b6131706d63,
  0x01786e2d2d7178613661,
  0x01786e2d2d7178616d,
  0x01786e2d2d72687176393667,
  0x01786e2d2d726f7675383862,
  0x01786e2d2d727663316530616d3365,
  0x01786e2d2d733962726a3963,
  0x01786e2d2d73657335353467,
  0x01786e2d2d74363062353661,
  0x01786e2d2d74636b7765,
  0x01786e2d2d74697134397871796a,
  0x01786e2d2d756e75703479,
  0x01786e2d2d7665726d67656e73626572617465722d637462,
  0x01786e2d2d7665726d67656e736265726174756e672d707762,
  0x01786e2d2d7668717576,
  0x01786e2d2d76757138363162,
  0x01786e2d2d7734723835656c3866687535646e7261,
  0x01786e2d2d7734727334306c,
  0x01786e2d2d776762683163,
  0x01786e2d2d7767626c3661,
  0x01786e2d2d78687135323162,
  0x01786e2d2d786b6332616c336879653261,
  0x01786e2d2d786b6332646c33613565653068,
  0x01786e2d2d793961336171,
  0x01786e2d2d7966726f346936376f,
  0x01786e2d2d7967626932616d6d78,
  0x01786e2d2d7a667231363462,
  0x01787878,
  0x0178797a,
  0x01796163687473,
  0x017961686f6f,
  0x0179616d6178756e,
  0x0179616e646578,
  0x017965,
  0x01796f646f6261736869,
  0x01796f6761,
  0x01796f6b6f68616d61,
  0x01796f75,
  0x01796f7574756265,
  0x017974,
  0x0179756e,
  0x017a61,
  0x017a6170706f73,
  0x017a617261,
  0x017a65726f,
  0x017a6970,
  0x017a6d,
  0x017a6f6e65,
  0x017a756572696368,
  0x017a77]

/-- HSK_TLD_NAMES (src/tld.h:8-1491) without the final NULL. -/
def names : List Nat :=
  names0 ++ names1 ++ names2 ++ names3 ++ names4 ++ names5 ++ names6 ++ names7 ++ names8 ++ names9 ++ names10 ++ names11 ++ names12 ++ names13 ++ names14

def data0 : List Nat := [
  0x01f20000005a91080220b18d0ec8791d98e167ca4d9745a0c27a6377e099d8f6a16a09567492ab16b7de020161036e6963036161610025d1c009020162c02a25d1c209020163c02a25d1c40902036e733103646e73c02a9c9a900202036e7332c04e9c9a910202036e7333c04e9c9a9f0203c02820010dcd00010000000000000000000903c03820010dcd00020000000000000000000903c04120010dcd00030000000000000000000903c04a261000a110710000000000000000000203c059261000a110720000000000000000000203c064261000a110730000000000000000000201c02801c03801c04101c04a01c05901c064,
  0x01b400000016770802207e8a14ab8f85009b9f19859815fa695954233fd9daa6ab359044d12621a77e9f0203616331056e73746c6403636f6d00c02aad1e0203616332c02cc02aae1e0203616333c02cc02aaf1e0203616334c02cc02ab01e03c0282001050001200000000000000000003003c03c2001050001210000000000000000003003c0472001050001220000000000000000003003c0522001050001230000000000000000003001c02801c03c01c04701c052,
  0x01b1000000f3490802208be9e8b680bc10289ea71a8b7c34fe0cdbaa86242b2c38541de454526df041a402026130036e696306616261727468004116181102026132c02b41161b1102026230c02b4116191102026330c02b41161a1103c0282a018840001a0000000000000000001703c03c2a018840001d0000000000000000001703c0462a018840001b0000000000000000001703c0502a018840001c0000000000000000001701c02801c03c01c04601c050,
  0x01b4000000f45f0802202dd7bf24ac488d85bc3f9d3f817d37de9f608e79403fa29e26a55679254f6f280203616331056e73746c6403636f6d00c02aad1e0203616332c02cc02aae1e0203616333c02cc02aaf1e0203616334c02cc02ab01e03c0282001050001200000000000000000003003c03c2001050001210000000000000000003003c0472001050001220000000000000000003003c0522001050001230000000000000000003001c02801c03c01c04701c052,
  0x01b1000000a32408022004c4003cf06316c866df2dcf23304b3a25d30778ac1a838f986350010d2647ce02026130036e6963066162626f74740041169c2902026132c02b41169f2902026230c02b41169d2902026330c02b41169e2903c0282a018840009a0000000000000000004103c03c2a018840009d0000000000000000004103c0462a018840009b0000000000000000004103c0502a018840009c0000000000000000004101c02801c03c01c04601c050,
  0x0141010000dd9008022011e4530f78b2c9cb2455d04dfa886a61c3f23e1887e53245b7950fff03ad8b2b0204646e7331036e69630661626276696500d5f8db290204646e7332c02d673153290204646e7333c02dd5f8df290204646e7334c02d2be633290204646e7361c02d9c9a64030204646e7362c02d9c9a65030204646e7363c02d9c9a66030204646e7364c02d9c9a670303c0282a01061804030000000000000000004103c03e2401fd8004030000000000000000004103c04a2a01061804070000000000000000004103c0562401fd8004070000000000000000004103c06220010502ad090000000000000000000303c06e200105022eda0000000000000000000303c07a261000a110090000000000000000000303c086261000a110100000000000000000000301c02801c03e01c04a01c05601c06201c06e01c07a01c086,
  0x01b40000009bdc0802207abc5a1f64fbbfad550cfe06953aa56a030be7212a77a60813ff633de705dec80203616331056e73746c6403636f6d00c02aad1e0203616332c02cc02aae1e0203616333c02cc02aaf1e0203616334c02cc02ab01e03c0282001050001200000000000000000003003c03c2001050001210000000000000000003003c0472001050001220000000000000000003003c0522001050001230000000000000000003001c02801c03c01c04701c052,
  0x01f3000000b092080220c7832f26b62fdf91da819ac5fa524eae2eebe0651caf074b59dc0176d49fd836020161036e69630461626c650025d1c00a020162c02a25d1c20a020163c02a25d1c40a02036e733103646e73c02a9c9a900302036e7332c04f9c9a910302036e7333c04f9c9a9f0303c02820010dcd00010000000000000000001003c03920010dcd00020000000000000000001003c04220010dcd00030000000000000000001003c04b261000a110710000000000000000000303c05a261000a110720000000000000000000303c065261000a110730000000000000000000301c02801c03901c04201c04b01c05a01c065,
  0x01ec0000007924080220fcfc05f3629da70f709fb54e7d17214483216d641f8a6cca90ad02be852e5a8c020161036e69630761626f6761646f0025d1c00a020162c02a25d1c20a020163c02a25d1c40a020178c02a9c9aac52020179c02a9c9aad5202017ac02a9c9aae5203c02820010dcd00010000000000000000001003c03c20010dcd00020000000000000000001003c04520010dcd00030000000000000000001003c04e261000a110740000000000000001008203c057261000a110750000000000000001008203c060261000a110760000000000000001008201c02801c03c01c04501c04e01c05701c060,
  0x01ed0000003b8f080114d2c05ad2312ebe77f6149f8b962dd9012d6d2cca003b8f0802204146c35f5ee96a341ee8c8f0aca17a2cbb52fcd1d6d1c95c9aab70061a7ac692020467746c64046265746106617269646e73036e65740261750025d1c20a020467746c6405616c706861c04c25d1c00a020467746c640564656c7461c04c25d1c60a020467746c640567616d6d61c04c25d1c40a03c04220010dcd00020000000000000000001003c06020010dcd00010000000000000000001003c07220010dcd00040000000000000000001003c08420010dcd00030000000000000000001001c04201c06001c07201c084,
  0x01ad000000a6a90802204b15f405c98f4bc3a370b19e54dbe75df201edcd38577c51d277dc6559865d9502026130036e6963026163004116a00102026132c02b4116a30102026230c02b4116a10102026330c02b4116a20103c0282a018840009e0000000000000000000103c0382a01884000a10000000000000000000103c0422a018840009f0000000000000000000103c04c2a01884000a00000000000000000000101c02801c03801c04201c04c,
  0x01fe00000053bf08022015eb9367def52ba7dce806a2d7adc6d3b279503235057fa6e7405e96b39f9052020476306e30036e69630761636164656d790041161825020476306e31c02d41161925020476306e32c02d41161a25020476306e33c02da1e80c25020476326e30c02d41161b25020476326e31c02da1e80d2503c0282a018840001a0000000000000000003703c03f2a018840001b0000000000000000003703c04b2a018840001c0000000000000000003703c0572a01884000f60000000000000000003703c0632a018840001d0000000000000000003703c06f2a01884000f70000000000000000003701c02801c03f01c04b01c05701c06301c06f,
  0x01b40000008a3c0802200c1ddb821c823afec10942d3dcd16d6306221e4ee7f2f524e5d9bad48bafd8fc0203616331056e73746c6403636f6d00c02aad1e0203616332c02cc02aae1e0203616333c02cc02aaf1e0203616334c02cc02ab01e03c0282001050001200000000000000000003003c03c2001050001210000000000000000003003c0472001050001220000000000000000003003c0522001050001230000000000000000003001c02801c03c01c04701c052,
  0x01f9000000ad650802206beec4c8bcc3a1e6b88c46e8348e3e7cf900524bbc2c92e42a202229ba7cd7f8020161036e69630a6163636f756e74616e740025d1c00a020162c02a25d1c20a020163c02a25d1c40a02036e733103646e73c02a9c9a90c302036e7332c0559c9a91c302036e7333c0559c9a9fc303c02820010dcd00010000000000000000001003c03f20010dcd00020000000000000000001003c04820010dcd00030000000000000000001003c051261000a11071000000000000000000c303c060261000a11072000000000000000000c303c06b261000a11073000000000000000000c301c02801c03f01c04801c05101c06001c06b,
  0x0102010000df45080220fe57f0ce1828f591e6ea40b797a64813b5c75624614f92a50a90ae164c24d2f7020476306e30036e69630b6163636f756e74616e7473004116201f020476306e31c02d4116211f020476306e32c02d4116221f020476306e33c02da1e8101f020476326e30c02d4116231f020476326e31c02da1e8111f03c0282a01884000220000000000000000003103c0432a01884000230000000000000000003103c04f2a01884000240000000000000000003103c05b2a01884000fa0000000000000000003103c0672a01884000250000000000000000003103c0732a01884000fb0000000000000000003101c02801c04301c04f01c05b01c06701c073,
  0x018f0000002009080220e32174a9c6e3e3899cf5e0fe6053d8d9e615e0c2993ca32db589027f03aec0c902016103646e73036e69630361636f00c200192002016dc02ac2001a0c02016ec02ac200180c03c0282001067800200000000000000000003203c03c2001067c10e00000000000000000001203c0452001067800240000000000000000001201c02801c03c01c045,
  0x01fc000000e848080220ffaf29ff2113edd3d797f86123bc6a7903f588a252bb9a85e35f2890cd2a283c020476306e30036e6963056163746f72004116203c020476306e31c02d4116213c020476306e32c02d4116223c020476306e33c02da1e8103c020476326e30c02d4116233c020476326e31c02da1e8113c03c0282a01884000220000000000000000006003c03d2a01884000230000000000000000006003c0492a01884000240000000000000000006003c0552a01884000fa0000000000000000006003c0612a01884000250000000000000000006003c06d2a01884000fb0000000000000000006001c02801c03d01c04901c05501c06101c06d,
  0x01190100002980080220732ac3921e40eac6c01b0c467beda420f42bf38b7c462e86d01d1d2c4eb9da3700d2970802209631077f41ae2be107b3f4f132c603f1d1d3217dd2c3f95380f3bad85061871702026164026e73036e696302657300c245fe0f02026164056363746c640761757468646e730472697065036e657400c100093502036e7333036e696302667200c08600310204646e736302616400c29e4a0a0204646e736dc097c29e4a0903c04e2001067c21cc2000000000000064004703c0612001067c00e00000000000000000005303c0812001066030060001000000000001000103c0922a02806032fa0000000000000000000b03c0a02a02806032fa0000000000000000000a01c04e01c06101c08101c09201c0a0,
  0x01fa000000b09b080220ddc1297dff56cc8b2de6ae9d81734bc6e4440a99ffa17c40e565433f629c300002076e732d746c643116636861726c6573746f6e726f6164726567697374727903636f6d00d8ef206902076e732d746c6432c030d8ef226902076e732d746c6433c030d8ef246902076e732d746c6434c030d8ef266902076e732d746c6435c030d8ef3c6903c0282001486048020032000000000000006903c0512001486048020034000000000000006903c0602001486048020036000000000000006903c06f2001486048020038000000000000006903c07e2001486048050000000000000000006901c02801c05101c06001c06f01c07e,
  0x01ea000000fb41080220ca734aa86339cb101665a65c4f33f4e86b37cf2512fd4c1655c00026d6f70915020161036e6963056164756c740025d1c00a020162c02a25d1c20a020163c02a25d1c40a020178c02a9c9aac52020179c02a9c9aad5202017ac02a9c9aae5203c02820010dcd00010000000000000000001003c03a20010dcd00020000000000000000001003c04320010dcd00030000000000000000001003c04c261000a110740000000000000001008203c055261000a110750000000000000001008203c05e261000a110760000000000000001008201c02801c03a01c04301c04c01c05501c05e,
  0x019c000002036e7331056165646e73026165004f62784902036e7332c0064f62794902036e73340561706e6963036e657400ca0c1f3502096e736578742d706368c006c704890103c0022a000d3001200000000000000000007303c0152a000d3001210000000000000000007303c02020010dd800120000000000000000005303c03420010500007d0000000000000000000101c00201c01501c02001c034,
  0x01b40000009b37080220b28a67a4935609bcf1257af4215b9ffce0f7e917bc076bd69030a5d76008ae510203616331056e73746c6403636f6d00c02aad1e0203616332c02cc02aae1e0203616333c02cc02aaf1e0203616334c02cc02ab01e03c0282001050001200000000000000000003003c03c2001050001210000000000000000003003c0472001050001220000000000000000003003c0522001050001230000000000000000003001c02801c03c01c04701c052,
  0x01cf000000e6bf0802201d81d38a696e94ade581ebdec47a2473a4a22712c33e5501d9756f98ce8b171402026130036e6963046165726f00c7fe330102026132c02bc7f9730102026230c02bc7fe340102026232c02bc7f97b0102026330c02bc7fe360103c02820010500001d0000000000000000000103c03a2001050000430000000000000000000103c04420010500001e0000000000000000000103c04e20010500004b0000000000000000000103c0582001050000200000000000000000000101c02801c03a01c04401c04e01c058,
  0x01f4000000c29b0802202f8cd71c2ca149b4da0f60092c775fecdff60b52d0a61064f458e0a99f378012020161036e6963056165746e610025d1c009020162c02a25d1c209020163c02a25d1c40902036e733103646e73c02a9c9a900502036e7332c0509c9a910502036e7333c0509c9a9f0503c02820010dcd00010000000000000000000903c03a20010dcd00020000000000000000000903c04320010dcd00030000000000000000000903c04c261000a110710000000000000000000503c05b261000a110720000000000000000000503c066261000a110730000000000000000000501c02801c03a01c04301c04c01c05b01c066,
  0x01910000000e6b08022056c77864a2cd726f252634c8804a2af33ea2ce70c49091e08c223bd2bb33cf5c02026e7307616e7963617374036e696302616600cc3dd80d02036e73310a616e7963617374646e7302637a00b9266c6c02036e7332c044b91cc2c203c028200105000014601300ad00000000000103c0402a00fea0dead0000000000000000beef01c02801c04001c058,
  0x01e80000002716080220de6443d2666e4f9e6066e1b7f1c42e3ce849246f4e1ea06ec86951a002a2efa6020161036e69630361666c0025d1c009020162c02a25d1c209020163c02a25d1c409020178c02a9c9aac52020179c02a9c9aad5202017ac02a9c9aae5203c02820010dcd00010000000000000000000903c03820010dcd00020000000000000000000903c04120010dcd00030000000000000000000903c04a261000a110740000000000000001008203c053261000a110750000000000000001008203c05c261000a110760000000000000001008201c02801c03801c04101c04a01c05301c05c,
  0x017f000000ae3d080220872009b128134f098aeb415390e1ccce0df64338f7d3345df140c59fb15c7d8202036e7370066e65746e6f6402736500c23ac6210205636f7a613107646e736e6f6465036e657400c2926a4a03c0282a0103f130330000000000000000005303c03c2001067c10100018000000000000005301c02801c03c,
  0x011201000022c9080220e3cdce330b6f170283c06a1e3aad11c098ad4a83cfc0f3cb603ecfc49af4a05902026130056363746c640b6166696c6961732d6e737404696e666f00c7fe3b0102026132c02bc7f9740102026230056363746c640b6166696c6961732d6e7374036f726700c7fe3c0102026232c055c7f97c0102026330c02bc7fe3d0102026430c055c7fe3e0103c0282001050000250000000000000000000103c0482001050000440000000000000000000103c0522001050000260000000000000000000103c07120010500004c0000000000000000000103c07b2001050000270000000000000000000103c0852001050000280000000000000000000101c02801c04801c05201c07101c07b01c085,
  0x01b2000000aed90802204b8c22972dcaa43686d72581c1cb59d1f18d111a24464b8fc3464e52c7200cef02026130036e6963076167616b68616e0041162c0102026132c02b41162f0102026230c02b41162d0102026330c02b41162e0103c0282a018840002a0000000000000000000103c03d2a018840002d0000000000000000000103c0472a018840002b0000000000000000000103c0512a018840002c0000000000000000000101c02801c03d01c04701c051,
  0x01fd0000000d600802201add3ab87e1adcf93dd66fdd6e4359737e7ef52c5b359b8b898ee928850be071020476306e30036e6963066167656e63790041161802020476306e31c02d41161902020476306e32c02d41161a02020476306e33c02da1e80c02020476326e30c02d41161b02020476326e31c02da1e80d0203c0282a018840001a0000000000000000000203c03e2a018840001b0000000000000000000203c04a2a018840001c0000000000000000000203c0562a01884000f60000000000000000000203c0622a018840001d0000000000000000000203c06e2a01884000f70000000000000000000201c02801c03e01c04a01c05601c06201c06e,
  0x019c0000020161066c6163746c64036f726700c800440a02037063680577686f697302616900cc3dd87b020e616e7963617374646e73312d637a036e6963c01fb91cc2c2020e616e7963617374646e73322d637ac037b9266c6c03c00228010014a0000000000000000000001003c015200105000014612300ad00000000000103c0422a00fea0dead0000000000000000beef01c00201c01501c02801c042,
  0x01f200000048a00802205561856a59f0b23749c885d4dd398a52b087ed06216daee0aeb88b965c4f6994020161036e6963036169670025d1c009020162c02a25d1c209020163c02a25d1c40902036e733103646e73c02a9c9a900602036e7332c04e9c9a910602036e7333c04e9c9a9f0603c02820010dcd00010000000000000000000903c03820010dcd00020000000000000000000903c04120010dcd00030000000000000000000903c04a261000a110710000000000000000000603c059261000a110720000000000000000000603c064261000a110730000000000000000000601c02801c03801c04101c04a01c05901c064,
  0x01b4000000792f080220fafdd4f89fa42d1396b42a972019bd3de013bd1708888fd77bd7dada8a38936d0203616331056e73746c6403636f6d00c02aad1e0203616332c02cc02aae1e0203616333c02cc02aaf1e0203616334c02cc02ab01e03c0282001050001200000000000000000003003c03c2001050001210000000000000000003003c0472001050001220000000000000000003003c0522001050001230000000000000000003001c02801c03c01c04701c052,
  0x01ff0000000e83080220d8c2c957776b06cc6b58a15da206712613092e36e90af34015d6881061dfb5a8020476306e30036e696308616972666f7263650041162022020476306e31c02d41162122020476306e32c02d41162222020476306e33c02da1e81022020476326e30c02d41162322020476326e31c02da1e8112203c0282a01884000220000000000000000003403c0402a01884000230000000000000000003403c04c2a01884000240000000000000000003403c0582a01884000fa0000000000000000003403c0642a01884000250000000000000000003403c0702a01884000fb0000000000000000003401c02801c04001c04c01c05801c06401c070,
  0x01b4000000a53c080220a698e339483d094208dfb7b858cdf0401bffc320afcc5aeed3b03dfe82bfacc00203616331056e73746c6403636f6d00c02aad1e0203616332c02cc02aae1e0203616333c02cc02aaf1e0203616334c02cc02ab01e03c0282001050001200000000000000000003003c03c2001050001210000000000000000003003c0472001050001220000000000000000003003c0522001050001230000000000000000003001c02801c03c01c04701c052,
  0x01af00000061e108022047e24ce61e8604c9a8fc169d5e073b280f24fa9132dcbb64e727003a8bf2715702026130036e696304616b646e0041162c1102026132c02b41162f1102026230c02b41162d1102026330c02b41162e1103c0282a018840002a0000000000000000001703c03a2a018840002d0000000000000000001703c0442a018840002b0000000000000000001703c04e2a018840002c0000000000000000001701c02801c03a01c04401c04e,
  0x019b000002036e7331036e696302616c00c20195e602036e7378c006c2000b6c02037269700370736703636f6d00931c002702076d756e6e617269026f7a02617500ca1d970303c01320010678000e0108000000000000005303c01e2001041800010000000000000000003903c030200103c890070001000000000000002103c030200103c890090181000000000000000201c00201c01301c01e01c030,
  0x01b4000000efcb08022064c23c01756936c2c088966c6540fc74e30e194d2c874ddb24e99d0e4bc58f9602026130036e696309616c6661726f6d656f0041167c1102026132c02b41167f1102026230c02b41167d1102026330c02b41167e1103c0282a018840007a0000000000000000001703c03f2a018840007d0000000000000000001703c0492a018840007b0000000000000000001703c0532a018840007c0000000000000000001701c02801c03f01c04901c053,
  0x01b20000001d5c0802209bb7ac1c7877373106e72e767ef0a772f43682d030ad67b2c7e3e473a9b7b69f02026130036e696307616c6962616261004116840902026132c02b4116870902026230c02b4116850902026330c02b4116860903c0282a01884000820000000000000000000903c03d2a01884000850000000000000000000903c0472a01884000830000000000000000000903c0512a01884000840000000000000000000901c02801c03d01c04701c051,
  0x01b100000026c208022001dc2703db44dca0f990ff6b619de1879dd06bdda5756272751a4b510cfd76bf02026130036e696306616c69706179004116801902026132c02b4116831902026230c02b4116811902026330c02b4116821903c0282a018840007e0000000000000000002503c03c2a01884000810000000000000000002503c0462a018840007f0000000000000000002503c0502a01884000800000000000000000002501c02801c03c01c04601c050,
  0x01d60000002b930802202337b2a34993e96d38fc18da0873463c467385bfe16e09e51245673f027f913a009bc90802208619bc44828ee2cdfb00e0c8e67ac0f7522aaaab12149ea53b6b52c421120a0c020161036e696309616c6c66696e616e7a00c2a9da4b020162c050b918404b020163c050d412f84b020164c050d412f94b03c04e2001067c13cc0000000000000001007503c0642a042b0013cc0000000000000001007503c06d2a042b0013ee0000000000000000007503c0762a042b0013ff0000000000000000007501c04e01c06401c06d01c076,
  0x01b3000000b995080220101757b35bfec8d399987d94b495b60acc0da525cf92d900c7566bce6ecf935602026130036e696308616c6c7374617465004116300902026132c02b4116330902026230c02b4116310902026330c02b4116320903c0282a018840002e0000000000000000000903c03e2a01884000310000000000000000000903c0482a018840002f0000000000000000000903c0522a01884000300000000000000000000901c02801c03e01c04801c052,
  0x01e90000009da208022046bfea1ca30072b089d2e566821640c144511b308df1f0271402d569c7332783020161036e696304616c6c790025d1c009020162c02a25d1c209020163c02a25d1c409020178c02a9c9aac52020179c02a9c9aad5202017ac02a9c9aae5203c02820010dcd00010000000000000000000903c03920010dcd00020000000000000000000903c04220010dcd00030000000000000000000903c04b261000a110740000000000000001008203c054261000a110750000000000000001008203c05d261000a110760000000000000001008201c02801c03901c04201c04b01c05401c05d,
  0x018e0000001b870d022040ac4eda437f376b0a772ac6f570055a6aa58d635ac07946a778abebb8e5c024020164036e696302667200c200090102016603657874c02ac2926a2e020167c039c200240103c02820010678000c0000000000000000000103c0372001067c10100011000000000000005303c04420010678004c0000000000000000000101c02801c03701c044,
  0x01cd000000ff610a022054e1da73874bc3c3291775181de3f4b6a7b2828fa67a0b519c380c3c1f3b35a40208616e7963617374390769726f6e646e73036e657400c3fd400b0209616e79636173743130c031c3fd400c0209616e79636173743233c031c3fd410b0209616e79636173743234c031c3fd410c03c0282a0105b000040000000000000000000b03c0432a0105b000040000000000000000000c03c0542a0105b000050000000000000000000b03c0652a0105b000050000000000000000000c01c02801c04301c05401c065,
  0x01d0000000c1d90d022030aea154b17d52884c12dab5650ce87b9628aa55110de1890f1d335d995a606d0204666f726b0373746807646e736e6f6465036e6574004d48e5fe02066e732d63646e05616d6e6963c039c200011a02066e732d706368c04acc3dd86002066e732d707269036e696302616d00c32b4b3503c0282a0103f000000306000000000000005303c0432001067800040000000000000000001a03c057200105000014609600ad00000000000103c065200107f900080053000000000000000101c02801c04301c05701c065,
  0x01410100003a060802204f9f1805f5689bf4af48f0fa04bef8727b83eac65a669e8bf1a5eafa83350d390204646e7331036e696306616d617a6f6e00d5f8da5a0204646e7332c02d6731525a0204646e7333c02dd5f8de5a0204646e7334c02d2be6325a0204646e7361c02d9c9a64030204646e7362c02d9c9a65030204646e7363c02d9c9a66030204646e7364c02d9c9a670303c0282a01061804020000000000000000009003c03e2401fd8004020000000000000000009003c04a2a01061804060000000000000000009003c0562401fd8004060000000000000000009003c06220010502ad090000000000000000000303c06e200105022eda0000000000000000000303c07a261000a110090000000000000000000303c086261000a110100000000000000000000301c02801c03e01c04a01c05601c06201c06e01c07a01c086,
  0x01fe0000007b1608022087098c48f0e74920da2d916e8aea9fc1e92919ee033ee569569942a5dcb02c02020161036e69630f616d65726963616e657870726573730025d1c009020162c02a25d1c209020163c02a25d1c40902036e733103646e73c02a9c9a900902036e7332c05a9c9a910902036e7333c05a9c9a9f0903c02820010dcd00010000000000000000000903c04420010dcd00020000000000000000000903c04d20010dcd00030000000000000000000903c056261000a110710000000000000000000903c065261000a110720000000000000000000903c070261000a110730000000000000000000901c02801c04401c04d01c05601c06501c070,
  0x01b4000000efd6080220f6890de22c9b4261c9fcfac53fe0849faa9b573ee95e027e070aba270cd966af0203616331056e73746c6403636f6d00c02aad1e0203616332c02cc02aae1e0203616333c02cc02aaf1e0203616334c02cc02ab01e03c0282001050001200000000000000000003003c03c2001050001210000000000000000003003c0472001050001220000000000000000003003c0522001050001230000000000000000003001c02801c03c01c04701c052,
  0x01f30000005971080220e17027e1218ba28cd5cc6847f0b7606066ee92eea6b9901d4e8e41b3e9930b6e020161036e696304616d65780025d1c009020162c02a25d1c209020163c02a25d1c40902036e733103646e73c02a9c9a900a02036e7332c04f9c9a910a02036e7333c04f9c9a9f0a03c02820010dcd00010000000000000000000903c03920010dcd00020000000000000000000903c04220010dcd00030000000000000000000903c04b261000a110710000000000000000000a03c05a261000a110720000000000000000000a03c065261000a110730000000000000000000a01c02801c03901c04201c04b01c05a01c065,
  0x01b40000001005080220d2c0246802aa5b615cfc8b700a5245adfca49477b37f870499a44ab272989a7d0203616331056e73746c6403636f6d00c02aad1e0203616332c02cc02aae1e0203616333c02cc02aaf1e0203616334c02cc02ab01e03c0282001050001200000000000000000003003c03c2001050001210000000000000000003003c0472001050001220000000000000000003003c0522001050001230000000000000000003001c02801c03c01c04701c052,
  0x01f40000003a36080220a464df4fd3a7b27eb3177a1813bc95d25d3f50e5ae5192619a272dce8587cea8020161036e696305616d6963610025d1c009020162c02a25d1c209020163c02a25d1c40902036e733103646e73c02a9c9a900b02036e7332c0509c9a910b02036e7333c0509c9a9f0b03c02820010dcd00010000000000000000000903c03a20010dcd00020000000000000000000903c04320010dcd00030000000000000000000903c04c261000a110710000000000000000000b03c05b261000a110720000000000000000000b03c066261000a110730000000000000000000b01c02801c03a01c04301c04c01c05b01c066,
  0x0197000000dcd2080220af680a3c1300a58bd0b4a4c42b274c369ebd7fd1bba8669ed34759e18132d78d02036e7331036e696309616d7374657264616d00c2001c0402036e7333c02cc200191a02036e7334c02cb99fc7ca03c02820010678002c0000019400000028000403c0402001067800200000000000000000002603c04b2620010a80ac0000000000000000020201c02801c04001c04b,
  0x01f8000000cb8008022055dfdf9c576ca2ad13deec42a7d0eb36df9ff56500c5cb33fa0c0879c6f1d8d6020161036e696309616e616c79746963730025d1c00a020162c02a25d1c20a020163c02a25d1c40a02036e733103646e73c02a9c9a900c02036e7332c0549c9a910c02036e7333c0549c9a9f0c03c02820010dcd00010000000000000000001003c03e20010dcd00020000000000000000001003c04720010dcd00030000000000000000001003c050261000a110710000000000000000000c03c05f261000a110720000000000000000000c03c06a261000a110730000000000000000000c01c02801c03e01c04701c05001c05f01c06a,
  0x01fa00000013490802209d8e83dd4629ddae1597428c5352eb7b9cecb4854548d960ac8d7112d24c7f0802076e732d746c643116636861726c6573746f6e726f6164726567697374727903636f6d00d8ef206902076e732d746c6432c030d8ef226902076e732d746c6433c030d8ef246902076e732d746c6434c030d8ef266902076e732d746c6435c030d8ef3c6903c0282001486048020032000000000000006903c0512001486048020034000000000000006903c0602001486048020036000000000000006903c06f2001486048020038000000000000006903c07e2001486048050000000000000000006901c02801c05101c06001c06f01c07e,
  0x019d0000006bad080220f8bcdc5d341ec24ca492b2a1fade90c2535844cb0f086a6ab77e0059ea2e8cdf02036e73310874656c65696e666f02636e00673d3c0102036e73320974656c65696e666f6f03636f6d00673d3d0102036e7333c02c673d3e0102036e7334c042673d3f0103c02824027d8000000000000000000000000103c03e24027d8088880000000000000000000101c02801c03e01c05601c061,
  0x01e800000061fc0802206a107b65405bfe98c0cc040fbd91a29d9fc927fea447ca0ae4f5538ecf9fcba5020161036e696303616e7a0025d1c009020162c02a25d1c209020163c02a25d1c409020178c02a9c9aac52020179c02a9c9aad5202017ac02a9c9aae5203c02820010dcd00010000000000000000000903c03820010dcd00020000000000000000000903c04120010dcd00030000000000000000000903c04a261000a110740000000000000001008203c053261000a110750000000000000001008203c05c261000a110760000000000000001008201c02801c03801c04101c04a01c05301c05c,
  0x016a000002016803646e7302707400c2926a8a0204616f3031c004b927d0110204616f3033c004cc3dd87103c0022001067c10100035000000000000005303c0112a046d8000000000000000000000001703c01d200105000014611300ad00000000000101c00201c01101c01d,
  0x01b40000009f270802203f32085e98a3e5bea4e1cd9ea6db43f4e7eaf8aec7bfbeabfd748b4245fd6c570203616331056e73746c6403636f6d00c02aad1e0203616332c02cc02aae1e0203616333c02cc02aaf1e0203616334c02cc02ab01e03c0282001050001200000000000000000003003c03c2001050001210000000000000000003003c0472001050001220000000000000000003003c0522001050001230000000000000000003001c02801c03c01c04701c052,
  0x01010100008f92080220e176954cd1754d3ab3e01a778f531d79db8a010d674c6f6934f019c0e690f183020476306e30036e69630a61706172746d656e74730041161c38020476306e31c02d41161d38020476306e32c02d41161e38020476306e33c02da1e80e38020476326e30c02d41161f38020476326e31c02da1e80f3803c0282a018840001e0000000000000000005603c0422a018840001f0000000000000000005603c04e2a01884000200000000000000000005603c05a2a01884000f80000000000000000005603c0662a01884000210000000000000000005603c0722a01884000f90000000000000000005601c02801c04201c04e01c05a01c06601c072,
  0x01fa0000005c840802203a5cc8a31e02c94aba6461912fabb7e9f5e34957bb6114a55a864d96aec3183602076e732d746c643116636861726c6573746f6e726f6164726567697374727903636f6d00d8ef206902076e732d746c6432c030d8ef226902076e732d746c6433c030d8ef246902076e732d746c6434c030d8ef266902076e732d746c6435c030d8ef3c6903c0282001486048020032000000000000006903c0512001486048020034000000000000006903c0602001486048020036000000000000006903c06f2001486048020038000000000000006903c07e2001486048050000000000000000006901c02801c05101c06001c06f01c07e,
  0x010a010000c3f607011420de4da26e31e393746200e709c6f4e91fe65d4f00c3f6070220b8038b6449b548e38fc74ce04d21726c9f052213a55573256c6867aed2e6c09100d50d07011407eca60632b3a62af2be9e597d7c5b6f1bb1fc2100d50d070220eb3a275c32eeab32b6f7f6a9ec1d19e327c68eaf1a55bd5b8dac634bc416e8c602026130036e6963056170706c650041163c0102026132c08541163f0102026230c08541163d0102026330c08541163e0103c0822a018840003a0000000000000000000103c0952a018840003d0000000000000000000103c09f2a018840003b0000000000000000000103c0a92a018840003c0000000000000000000101c08201c09501c09f01c0a9,
  0x018d000002036e733107616e796361737403646e7302617100cc3dd8840204666f726b0373746807646e736e6f6465036e6574004d48e5fe02046e73393903646e73036e6574026e7a00ca2ebe8303c002200105000014613200ad00000000000103c01b2a0103f000000306000000000000005303c03620010dce20000002000000000000013101c00201c01b01c036,
  0x018e000000562d0d022065a423ec214071521668ed047d2e74ba781e6495e0252cb8e08a7a633a89297d020164036e696302667200c200090102016603657874c02ac2926a2e020167c039c200240103c02820010678000c0000000000000000000103c0372001067c10100011000000000000005303c04420010678004c0000000000000000000101c02801c03701c044,
  0x011d0100004c960802204415cf1a2cf10de94b92bc020f21d1bf4163b2e90f2a6f6a5d2a1740339d566c02016103646e7302617200c86c9132020162c02ac86c9332020163c02ac86c9432020164c02ac08c7e32020165c02aaaee4232020166c02a823b1f1402026172056363746c640761757468646e730472697065036e657400c100093b03c0282801014000000000000000000000001003c0372801014000110000000000000000005003c0402801014000100000000000000000001003c04928010140dddd0000000000000000005003c05228010140eeee0000000000000000005003c05b20010620000000ff000000000000002003c0642001067c00e00000000000000000005901c02801c03701c04001c04901c05201c05b01c064,
  0x01ed00000050bf080114a3cc3ad421ec53930b28b255900f9f005c881ae70050bf080220164f98c3ddc5c95932ed38afc1eac629b8b10484598dd6b3d288c6bd95778730020467746c64046265746106617269646e73036e65740261750025d1c20a020467746c6405616c706861c04c25d1c00a020467746c640564656c7461c04c25d1c60a020467746c640567616d6d61c04c25d1c40a03c04220010dcd00020000000000000000001003c06020010dcd00010000000000000000001003c07220010dcd00040000000000000000001003c08420010dcd00030000000000000000001001c04201c06001c07201c084,
  0x01fb00000056bf0802202af8a3fc1aab39c9117f19956a83f0353fb0c206b33f253331080c91343781b302036e733103646e73036e6963066172616d636f009c9a900e02036e7332c02c9c9a910e02036e7333c02c9c9a9f0e02036e7334c02c9c9a9c0e02036e7335c02c9c9a9d0e02036e7336c02c9c9a9e0e03c028261000a110710000000000000000000e03c041261000a110720000000000000000000e03c04c261000a110730000000000000000000e03c057261000a110740000000000000000000e03c062261000a110750000000000000000000e03c06d261000a110760000000000000000000e01c02801c04101c04c01c05701c06201c06d,
  0x01b00000002b7e080220ed2b030f401540096b716481cd8897e37d9a8cecbdfd98c709f4860c7750168002026130036e6963056172636869004116540102026132c02b4116570102026230c02b4116550102026330c02b4116560103c0282a01884000520000000000000000000103c03b2a01884000550000000000000000000103c0452a01884000530000000000000000000103c04f2a01884000540000000000000000000101c02801c03b01c04501c04f,
  0x01fb00000014b0080220e3738fdaf25d7707191eb37c73924358896e8d046b8d5ddf4d40664abe87296b020476306e30036e69630461726d790041161c3b020476306e31c02d41161d3b020476306e32c02d41161e3b020476306e33c02da1e80e3b020476326e30c02d41161f3b020476326e31c02da1e80f3b03c0282a018840001e0000000000000000005903c03c2a018840001f0000000000000000005903c0482a01884000200000000000000000005903c0542a01884000f80000000000000000005903c0602a01884000210000000000000000005903c06c2a01884000f90000000000000000005901c02801c03c01c04801c05401c06001c06c,
  0x01a2010000a655080220f28391c1ed4dc0f151edd251a3103dce0b9a5a251acf6e24073771d71f3c40f9020161026e73046172706100c6290004020162c02ac7090ec9020163c02ac021040c020164c02ac7075b0d020165c02ac0cbe60a020166c02ac00505f1020167c02ac0702404020168c02ac661be35020169c02ac024941102016bc02ac1000e8102016cc02ac707532a02016dc02aca0c1b2103c02820010503ba3e0000000000000002003003c0382001050002000000000000000000000b03c0412001050000020000000000000000000c03c04a20010500002d0000000000000000000d03c0532001050000a80000000000000000000e03c05c20010500002f0000000000000000000f03c06520010500001200000000000000000d0d03c06e2001050000010000000000000000005303c077200107fe00000000000000000000005303c080200107fd00000000000000000000000103c08920010500009f0000000000000000004203c09220010dc300000000000000000000003501c02801c03801c04101c04a01c05301c05c01c06501c06e01c07701c08001c08901c092,
  0x01aa000000732d080220bf041a7ec6ca857f5d85151c66f561deb9c863b98e05670c345c9cf9ed199aee020161036e69630361727400c2a9da31020162c02ab9184031020163c02ad412f831020164c02ad412f93103c0282001067c13cc0000000000000001004903c0382a042b0013cc0000000000000001004903c0412a042b0013ee0000000000000000004903c04a2a042b0013ff0000000000000000004901c02801c03801c04101c04a,
  0x01b4000000b688080220d197248e95610371f7624d79d397037ea5e200e6f338bccedf5e93bb684481520203616331056e73746c6403636f6d00c02aad1e0203616332c02cc02aae1e0203616333c02cc02aaf1e0203616334c02cc02ab01e03c0282001050001200000000000000000003003c03c2001050001210000000000000000003003c0472001050001220000000000000000003003c0522001050001230000000000000000003001c02801c03c01c04701c052,
  0x01f9000002036e73310561736e69630362697a00d5f8dbfe02036e73320561736e696304696e666f00673153fe02036e73330561736e6963036f726700d5f8dffe02036e73340561736e696302756b002be633fe02036e73350561736e696302757300c2926a560203706368036e696302617300cc3dd86f03c0022a01061804030000000000000000025403c0162401fd8004030000000000000000025403c02b2a01061804070000000000000000025403c03f2401fd8004070000000000000000025403c0522001067c10100022000000000000005303c065200105000014611100ad00000000000101c00201c01601c02b01c03f01c05201c065,
  0x01b40000000c5108022052bb4fa0c9653f7c74296f54cee26b763688040ee511162b33a67345eb2ee56b0203616331056e73746c6403636f6d00c02aad1e0203616332c02cc02aae1e0203616333c02cc02aaf1e0203616334c02cc02ab01e03c0282001050001200000000000000000003003c03c2001050001210000000000000000003003c0472001050001220000000000000000003003c0522001050001230000000000000000003001c02801c03c01c04701c052,
  0x01250100005b6f0802200f51a4e5ef96b66c2078f7735b41860c83da0746ddda1a1b2b893ab056b3058c0202613004617369610b6166696c6961732d6e737404696e666f00c713370102026132c02bc7f972010202623004617369610b6166696c6961732d6e7374046173696100c7fe1c010202623204617369610b6166696c6961732d6e7374036f726700c7f97a0102026330c02bc7fe1d0102026430c054c7fe1e0103c02820010500000d0000000000000000000103c0472001050000420000000000000000000103c0512001050000160000000000000000000103c07020010500004a0000000000000000000103c08e2001050000170000000000000000000103c0982001050000180000000000000000000101c02801c04701c05101c07001c08e01c098,
  0x0101010000c9ee080220b92f8f575097b95ab00af8de35f962205ddd4bc0662b1dd212b5d062d679d338020476306e30036e69630a6173736f6369617465730041161c1b020476306e31c02d41161d1b020476306e32c02d41161e1b020476306e33c02da1e80e1b020476326e30c02d41161f1b020476326e31c02da1e80f1b03c0282a018840001e0000000000000000002703c0422a018840001f0000000000000000002703c04e2a01884000200000000000000000002703c05a2a01884000f80000000000000000002703c0662a01884000210000000000000000002703c0722a01884000f90000000000000000002701c02801c04201c04e01c05a01c06601c072,
  0x015a0100004b5e0802208f9d0acd78ff2f88f5641c339f05862220aef51a6df480039c8d4da4f1f8a0e000c76608022055f25d5c8c31edf1c8cd5a954f39aa90a094f49398fcd7695e2d9cd72e9e6d0f020164026e7302617400515ba16202016ac050c2926a3202016ec050515bad82020172c050c200190a020175c050b9660c0202036e733106756e69766965026163c0534e68900202036e7332c084c05c7d0202036e7339c084c2000a6403c04e2a02056800200001000000000000000d03c05c2001067c10100012000000000000005303c0652a02056802810000000000000000013003c06e2001067800200000000000000000001003c0772a020850ffff0000000000000000000203c0802001062820304301000000000000000203c09520010678001c0000000000000000000203c0a020010678000d0000000000000000cafe01c04e01c05c01c06501c06e01c07701c08001c09501c0a0,
  0x01f600000060c708022027e604906e1205089032c4cf28bc8e12c35d6dd3c1d5fe612ef5fae0aa5ac6ba020161036e6963076174686c6574610025d1c009020162c02a25d1c209020163c02a25d1c40902036e733103646e73c02a9c9a901002036e7332c0529c9a911002036e7333c0529c9a9f1003c02820010dcd00010000000000000000000903c03c20010dcd00020000000000000000000903c04520010dcd00030000000000000000000903c04e261000a110710000000000000000001003c05d261000a110720000000000000000001003c068261000a110730000000000000000001001c02801c03c01c04501c04e01c05d01c068,
  0x01ff0000009415080220c4a297804ce08f6ec8bdb6ebdc8c0907da680a9feb90555ac0b6bb8f38026ce4020476306e30036e6963086174746f726e65790041161414020476306e31c02d41161514020476306e32c02d41161614020476306e33c02da1e80a14020476326e30c02d41161714020476326e31c02da1e80b1403c0282a01884000160000000000000000002003c0402a01884000170000000000000000002003c04c2a01884000180000000000000000002003c0582a01884000f40000000000000000002003c0642a01884000190000000000000000002003c0702a01884000f50000000000000000002001c02801c04001c04c01c05801c06401c070,
  0x01e300000088420802208de6a7a1aa8ac4ad4dc732074f43c08be6cb88cfbc245207e8fd70b3014e32b402016302617500a29f18b3020164c02aa29f1926020171c02a4116c401020172c02a4116c501020173c02a4116c601020174c02a4116c70103c0282400cb002049000100000000a29f18b303c0332400cb002049000100000000a29f192603c03c2a01884000be0000000000000000000103c0452a01884000bf0000000000000000000103c04e2a01884000c00000000000000000000103c0572a01884000c10000000000000000000101c02801c03301c03c01c04501c04e01c057,
  0x01fe00000070bd080220a36871c0fbde1696e659a812be9ca47a2b140c26bdbd84c61c6ba3a25175a2fd020476306e30036e69630761756374696f6e0041162037020476306e31c02d41162137020476306e32c02d41162237020476306e33c02da1e81037020476326e30c02d41162337020476326e31c02da1e8113703c0282a01884000220000000000000000005503c03f2a01884000230000000000000000005503c04b2a01884000240000000000000000005503c0572a01884000fa0000000000000000005503c0632a01884000250000000000000000005503c06f2a01884000fb0000000000000000005501c02801c03f01c04b01c05701c06301c06f,
  0x01af000000bac1080220aa1fa212d47d097669f357c0c70ed8be45edcd5ba04d951f4ed9f9a260476fca02026130036e69630461756469004116d01102026132c02b4116d31102026230c02b4116d11102026330c02b4116d21103c0282a01884000ca0000000000000000001703c03a2a01884000cd0000000000000000001703c0442a01884000cb0000000000000000001703c04e2a01884000cc0000000000000000001701c02801c03a01c04401c04e,
  0x0142010000390e080220616bfe32b134d3ada721660aeb86f2065ff600a1511530f3180f4f2e895889130204646e7331036e69630761756469626c6500d5f8da380204646e7332c02d673152380204646e7333c02dd5f8de380204646e7334c02d2be632380204646e7361c02d9c9a64030204646e7362c02d9c9a65030204646e7363c02d9c9a66030204646e7364c02d9c9a670303c0282a01061804020000000000000000005603c03f2401fd8004020000000000000000005603c04b2a01061804060000000000000000005603c0572401fd8004060000000000000000005603c06320010502ad090000000000000000000303c06f200105022eda0000000000000000000303c07b261000a110090000000000000000000303c087261000a110100000000000000000000301c02801c03f01c04b01c05701c06301c06f01c07b01c087,
  0x01460100002a37050114a8743f3c50bf77807ef5713d614f4cf1c0567f95002a37050220859c5604b1a595b5e139d2904314e6e5eee152ace825a74eca32a3e1290f178c004edf050114bb72622c591c9f739af49c13eedb7f2796cbc8fb004edf050220775c07f584233b85606ac3874441c97ad1af7f144d3e9f0fd779f1e064e4931600bf83050114f2611084038a67137a2a8ef584402bad64ee365d00bf830502205679b4abdcc3a065fe7fdddcf8ad1d7ebe22323d758abc315ab4d4d8b49cf684020161036e696305617564696f00c2a9da96020162c0c4b9184096020163c0c4d412f896020164c0c4d412f99603c0c22001067c13cc0000000000000001015003c0d42a042b0013cc0000000000000001015003c0dd2a042b0013ee0000000000000000015003c0e62a042b0013ff0000000000000000015001c0c201c0d401c0dd01c0e6,
  0x01ec0000005b2d080220cdce581a5b4b9280a865fc7bd798572016629e0b4c56cac1a3fccefb0d4329a2020161036e696307617573706f73740025d1c009020162c02a25d1c209020163c02a25d1c409020178c02a9c9aac52020179c02a9c9aad5202017ac02a9c9aae5203c02820010dcd00010000000000000000000903c03c20010dcd00020000000000000000000903c04520010dcd00030000000000000000000903c04e261000a110740000000000000001008203c057261000a110750000000000000001008203c060261000a110760000000000000001008201c02801c03c01c04501c04e01c05701c060,
  0x01410100001252080220fc1aaa00c7d9798c3bbeed82b37aafba04ae15e97016e9a8b646ac5c37572da30204646e7331036e696306617574686f7200d5f8da3c0204646e7332c02d6731523c0204646e7333c02dd5f8de3c0204646e7334c02d2be6323c0204646e7361c02d9c9a64030204646e7362c02d9c9a65030204646e7363c02d9c9a66030204646e7364c02d9c9a670303c0282a01061804020000000000000000006003c03e2401fd8004020000000000000000006003c04a2a01061804060000000000000000006003c0562401fd8004060000000000000000006003c06220010502ad090000000000000000000303c06e200105022eda0000000000000000000303c07a261000a110090000000000000000000303c086261000a110100000000000000000000301c02801c03e01c04a01c05601c06201c06e01c07a01c086,
  0x01c5000000a2140501144ef1eddd59daee765cd1ed0205081d46d25bbe7c00a21405022001b3b92918b955d84a70f1bc254513d6fd90a33e8ababc0aafcf8830ac259c2c020161036e6963046175746f00c2a9da83020162c044b9184083020163c044d412f883020164c044d412f98303c0422001067c13cc0000000000000001013103c0532a042b0013cc0000000000000001013103c05c2a042b0013ee0000000000000000013103c0652a042b0013ff0000000000000000013101c04201c05301c05c01c065,
  0x01d200000032b3080220b803b9558f22efb130a7b8a43e1cb855b94de8dc5558a1bc350dba0560e27bcd00f03408022034f530b8473fa65a88c5f81552efad281321445f6dc77ed685e06071bb56f0dd020161036e6963056175746f7300c2a9da88020162c050b9184088020163c050d412f888020164c050d412f98803c04e2001067c13cc0000000000000001013603c0602a042b0013cc0000000000000001013603c0692a042b0013ee0000000000000000013603c0722a042b0013ff0000000000000000013601c04e01c06001c06901c072,
  0x01b20000003e9b080220a87ec8292b65cd932f5b29c32773dabfff897e71b9921fa4f000f826542f65cc02026130036e696307617669616e6361004116501102026132c02b4116531102026230c02b4116511102026330c02b4116521103c0282a018840004e0000000000000000001703c03d2a01884000510000000000000000001703c0472a018840004f0000000000000000001703c0512a01884000500000000000000000001701c02801c03d01c04701c051,
  0x01d800000097c608022023fa5636c1d793336a1eb15bbd26aa902cf12fb88200c64512f065ae355a4d9b02036e733103646e7302617700c2001c0202036e7332c02cc2926a2a02036e7333c02cc200191902036e7334c02cb99fc7c90204617730310873657461726e6574c030c9e5001a020461773032c05fc9e5001b03c02820010678002c0000019400000028000203c0392001067c10100010000000000000005303c0442001067800200000000000000000002503c04f2620010a80ac0000000000000000020101c02801c03901c04401c04f01c05a01c06f,
  0x013e010000d3a608022076f2c3fbb9f23ff5f59a4cd63b8d5d5174b3f2e0f034b7323c1543312f37301d0204646e7331036e69630361777300d5f8da350204646e7332c02d673152350204646e7333c02dd5f8de350204646e7334c02d2be632350204646e7361c02d9c9a64030204646e7362c02d9c9a65030204646e7363c02d9c9a66030204646e7364c02d9c9a670303c0282a01061804020000000000000000005303c03b2401fd8004020000000000000000005303c0472a01061804060000000000000000005303c0532401fd8004060000000000000000005303c05f20010502ad090000000000000000000303c06b200105022eda0000000000000000000303c077261000a110090000000000000000000303c083261000a110100000000000000000000301c02801c03b01c04701c05301c05f01c06b01c07701c083,
  0x0196000000d3270802204299c76d8767752c8a10579c4465cbc1c61ad2e1a0d68b42df75645322f0620202036e733105616c616e64036e657400c270000102036e7332c02cc270000502036e733305616c636f6d0266690052c7ba8202036e7334c04b52c7b8c203c0472a00550000010006000000000000013003c05a2a00550000010007000000000000019401c02801c03c01c04701c05a,
  0x01f2000000f45a080220e0444f158023dd294cb64ebce2b642bd7d26eddf0d5a1592b12c9d6411c1c448020161036e6963036178610025d1c009020162c02a25d1c209020163c02a25d1c40902036e733103646e73c02a9c9a901402036e7332c04e9c9a911402036e7333c04e9c9a9f1403c02820010dcd00010000000000000000000903c03820010dcd00020000000000000000000903c04120010dcd00030000000000000000000903c04a261000a110710000000000000000001403c059261000a110720000000000000000001403c064261000a110730000000000000000001401c02801c03801c04101c04a01c05901c064,
  0x0194000000bda00802204cb64b087166bd2a837efcedc5d210f3ffbedb7e6535998b27a1e43b948967cc0202617a0a686f73746d617374657202756100c32ffd0d02036e733307696e7472616e7302617a0094fb02f602037269700370736703636f6d00931c002703c0282001067c02580000000000000000001303c0542001041800010000000000000000003901c02801c03f01c054,
  0x01b400000064620802202c2d532d450f86fbc9238816088ed98ae6c8a5f665706dd634ba4e63a8d8837f0203616331056e73746c6403636f6d00c02aad1e0203616332c02cc02aae1e0203616333c02cc02aaf1e0203616334c02cc02ab01e03c0282001050001200000000000000000003003c03c2001050001210000000000000000003003c0472001050001220000000000000000003003c0522001050001230000000000000000003001c02801c03c01c04701c052,
  0x0149000002026e7302626100c38223050203756e610475746963036e6574c005cc3dd875020473617661c012c382230303c00e200105000014611700ad00000000000101c00201c00e01c022,
  0x01ab0000002bae0802206b39ccc9ba6c73c818d68522547e5d56db46e13607dc0e83047d6e111067dcb2020161036e6963046261627900c2a9da65020162c02ab9184065020163c02ad412f865020164c02ad412f96503c0282001067c13cc0000000000000001010103c0392a042b0013cc0000000000000001010103c0422a042b0013ee0000000000000000010103c04b2a042b0013ff0000000000000000010101c02801c03901c04201c04b,
  0x01ac000000f94908022013605ebd9736b66b1eb3b2db5865ca66b5efd2be720087fe4441039f3aa4cf3d020161097a646e73636c6f756403636f6d00cb631801020162c02acb631901020163c02acb631a01020164c02acb631b01020166c02a724310cc020167c02a2a3e0210030169c02a24018d0000010000000000000000000103016ac02a24018d0000020000000000000000000101c02801c03e01c04701c05001c05901c06201c06b01c080,
  0x01f6000000bdeb0802200ec0cea382d19ea64e24c4c8b5dcd64217a362f580401ddf31b3ef3d78e35a9b020161036e69630762616e616d65780025d1c009020162c02a25d1c209020163c02a25d1c40902036e733103646e73c02a9c9a901502036e7332c0529c9a911502036e7333c0529c9a9f1503c02820010dcd00010000000000000000000903c03c20010dcd00020000000000000000000903c04520010dcd00030000000000000000000903c04e261000a110710000000000000000001503c05d261000a110720000000000000000001503c068261000a110730000000000000000001501c02801c03c01c04501c04e01c05d01c068,
  0x01fd00000090070802204a4b1a43d4525be366f7cc568365d7d619dace7f6895e3c31390a079a7a03589020161036e69630e62616e616e6172657075626c69630025d1c009020162c02a25d1c209020163c02a25d1c40902036e733103646e73c02a9c9a901602036e7332c0599c9a911602036e7333c0599c9a9f1603c02820010dcd00010000000000000000000903c04320010dcd00020000000000000000000903c04c20010dcd00030000000000000000000903c055261000a110710000000000000000001603c064261000a110720000000000000000001603c06f261000a110730000000000000000001601c02801c04301c04c01c05501c06401c06f]
def data1 : List Nat := [
  0x01fb000000154f08022069ef1edb0708b50d7f22ccb045fa49699b12e5e7f86dccc3dd84baec7390ac35020476306e30036e69630462616e640041161c2d020476306e31c02d41161d2d020476306e32c02d41161e2d020476306e33c02da1e80e2d020476326e30c02d41161f2d020476326e31c02da1e80f2d03c0282a018840001e0000000000000000004503c03c2a018840001f0000000000000000004503c0482a01884000200000000000000000004503c0542a01884000f80000000000000000004503c0602a01884000210000000000000000004503c06c2a01884000f90000000000000000004501c02801c03c01c04801c05401c06001c06c,
  0x01e90000003e7a080220659d10863a42e4957ad8f9ad97a56f8de227aa74fc9e3aa4c0e8afac0458071a020164036e69630462616e6b009c9a671b020165c02a9c9a681b020166c02a9c9a691b020177c02a25d1c00a020178c02a25d1c20a020179c02a25d1c40a03c028261000a110100000000000000000002703c039261000a110110000000000000000002703c042261000a110120000000000000000002703c04b20010dcd00010000000000000000001003c05420010dcd00020000000000000000001003c05d20010dcd00030000000000000000001001c02801c03901c04201c04b01c05401c05d,
  0x01c4000000d86e080114eecf54c6dab2cf3fa76effce97b78f432050da9e00d86e0802208e8e102e6751da62e354bd322c9bdd42c29bf6a413b29da5bdc579e2ed3c8da1020161036e69630362617200c2a9da38020162c044b9184038020163c044d412f838020164c044d412f93803c0422001067c13cc0000000000000001005603c0522a042b0013cc0000000000000001005603c05b2a042b0013ee0000000000000000005603c0642a042b0013ff0000000000000000005601c04201c05201c05b01c064,
  0x01cd000000a5010a0220950d7e77e7d64382a3c69654ae15ec70a497e6e9002d10eb1bf9c1b89f77eef70208616e7963617374390769726f6e646e73036e657400c3fd400b0209616e79636173743130c031c3fd400c0209616e79636173743233c031c3fd410b0209616e79636173743234c031c3fd410c03c0282a0105b000040000000000000000000b03c0432a0105b000040000000000000000000c03c0542a0105b000050000000000000000000b03c0652a0105b000050000000000000000000c01c02801c04301c05401c065,
  0x01b6000000211c0802205ff69331a1fe54d3d3ea6f4b746444c19c1e61813ac3902e099cb25c369a39c402026130036e69630b626172636c617963617264004116780902026132c02b41167b0902026230c02b4116790902026330c02b41167a0903c0282a01884000760000000000000000000903c0412a01884000790000000000000000000903c04b2a01884000770000000000000000000903c0552a01884000780000000000000000000901c02801c04101c04b01c055,
  0x01b3000000cc0a080220616f95c6929bd5fbf6a06a38445f48ca787b2c32ca5ed7220065df54e71e9ef802026130036e696308626172636c617973004116780102026132c02b41167b0102026230c02b4116790102026330c02b41167a0103c0282a01884000760000000000000000000103c03e2a01884000790000000000000000000103c0482a01884000770000000000000000000103c0522a01884000780000000000000000000101c02801c03e01c04801c052,
  0x01b40000008ade0802202a380080b296e5bf1c8212618288fddbc665f7689a31dfdc7eeccfaefe17203d0203616331056e73746c6403636f6d00c02aad1e0203616332c02cc02aae1e0203616333c02cc02aaf1e0203616334c02cc02ab01e03c0282001050001200000000000000000003003c03c2001050001210000000000000000003003c0472001050001220000000000000000003003c0522001050001230000000000000000003001c02801c03c01c04701c052,
  0x01ff00000083ce080220d6d6432e43ac528ffb2c3cb4a6f058cf9e40e2dc290fee965a8a3c49adf2d50f020476306e30036e6963086261726761696e73004116143e020476306e31c02d4116153e020476306e32c02d4116163e020476306e33c02da1e80a3e020476326e30c02d4116173e020476326e31c02da1e80b3e03c0282a01884000160000000000000000006203c0402a01884000170000000000000000006203c04c2a01884000180000000000000000006203c0582a01884000f40000000000000000006203c0642a01884000190000000000000000006203c0702a01884000f50000000000000000006201c02801c04001c04c01c05801c06401c070,
  0x01f70000007027080220349e8b6a2e0890837ff4b69f7efb0f44e3c32dc976fa74962dd8f812d7712f66020161036e6963086261736562616c6c0025d1c00a020162c02a25d1c20a020163c02a25d1c40a02036e733103646e73c02a9c9a90c802036e7332c0539c9a91c802036e7333c0539c9a9fc803c02820010dcd00010000000000000000001003c03d20010dcd00020000000000000000001003c04620010dcd00030000000000000000001003c04f261000a11071000000000000000000c803c05e261000a11072000000000000000000c803c069261000a11073000000000000000000c801c02801c03d01c04601c04f01c05e01c069,
  0x01ef000000b479080220ca5c951d022f3965ab936d403cfbb48f2d753d7b32dde3ac146b419693dfbf30020161036e69630a6261736b657462616c6c0025d1c00a020162c02a25d1c20a020163c02a25d1c40a020178c02a9c9aac52020179c02a9c9aad5202017ac02a9c9aae5203c02820010dcd00010000000000000000001003c03f20010dcd00020000000000000000001003c04820010dcd00030000000000000000001003c051261000a110740000000000000001008203c05a261000a110750000000000000001008203c063261000a110760000000000000001008201c02801c03f01c04801c05101c05a01c063,
  0x01cd0000000d500a02208e5c6c53e04001f14305794f1b28eb612b8d297cc190f8662b53e3710ce824560208616e7963617374390769726f6e646e73036e657400c3fd400b0209616e79636173743130c031c3fd400c0209616e79636173743233c031c3fd410b0209616e79636173743234c031c3fd410c03c0282a0105b000040000000000000000000b03c0432a0105b000040000000000000000000c03c0542a0105b000050000000000000000000b03c0652a0105b000050000000000000000000c01c02801c04301c05401c065,
  0x01f3000000154a0802200be5b2cd561159ec40895cc8a8d79d74b3437a4ca4d4d48fe1863315c092ca980069d7080220c8d5a25263ef9eaab175f1ca68623488aa7919e16814f516cc369e09f237623a0208616e7963617374390769726f6e646e73036e657400c3fd400b0209616e79636173743130c057c3fd400c0209616e79636173743233c057c3fd410b0209616e79636173743234c057c3fd410c03c04e2a0105b000040000000000000000000b03c0692a0105b000040000000000000000000c03c07a2a0105b000050000000000000000000b03c08b2a0105b000050000000000000000000c01c04e01c06901c07a01c08b,
  0x0199000002036e7331036e6963026262004044c00a02036e7332c006c629defe02036e7333c0064044c40a02036e7334c0064044c50a02036e7335c006c8325cc303c0022400cb002049000100000000a29f183503c0132400cb002049000100000000c629defe03c01e2620004900030000000000000000001003c0292620004900040000000000000000001001c00201c01301c01e01c02901c034,
  0x013e0100002936080220a5006c3437ce92e184d0e45ad5e31c35ffc69353aefec0926b78d04a6d3c99bd0204646e7331036e69630362626300d5f8db040204646e7332c02d673153040204646e7333c02dd5f8df040204646e7334c02d2be633040204646e7361c02d9c9a64030204646e7362c02d9c9a65030204646e7363c02d9c9a66030204646e7364c02d9c9a670303c0282a01061804030000000000000000000403c03b2401fd8004030000000000000000000403c0472a01061804070000000000000000000403c0532401fd8004070000000000000000000403c05f20010502ad090000000000000000000303c06b200105022eda0000000000000000000303c077261000a110090000000000000000000303c083261000a110100000000000000000000301c02801c03b01c04701c05301c05f01c06b01c07701c083,
  0x01b40000003c1e080220e7872a1449946ba400b2472a61f369fe8ecf57ebada1fae28bf0bac242aac4f70203616331056e73746c6403636f6d00c02aad1e0203616332c02cc02aae1e0203616333c02cc02aaf1e0203616334c02cc02ab01e03c0282001050001200000000000000000003003c03c2001050001210000000000000000003003c0472001050001220000000000000000003003c0522001050001230000000000000000003001c02801c03c01c04701c052,
  0x013f01000078f2080220e800c51f8933f6eb2f234b542f1c83c8e703d9448bff8aac4356edc1eb6ad7c90204646e7331036e6963046262766100d5f8db2c0204646e7332c02d6731532c0204646e7333c02dd5f8df2c0204646e7334c02d2be6332c0204646e7361c02d9c9a64030204646e7362c02d9c9a65030204646e7363c02d9c9a66030204646e7364c02d9c9a670303c0282a01061804030000000000000000004403c03c2401fd8004030000000000000000004403c0482a01061804070000000000000000004403c0542401fd8004070000000000000000004403c06020010502ad090000000000000000000303c06c200105022eda0000000000000000000303c078261000a110090000000000000000000303c084261000a110100000000000000000000301c02801c03c01c04801c05401c06001c06c01c07801c084,
  0x01ae0000002a8b080220e3428a6f71b3f25036a32eafb4811ee26d0e4c2f9e1098c0071ab25431cb339d02026130036e696303626367004116d81902026132c02b4116db1902026230c02b4116d91902026330c02b4116da1903c0282a01884000d20000000000000000002503c0392a01884000d50000000000000000002503c0432a01884000d30000000000000000002503c04d2a01884000d40000000000000000002501c02801c03901c04301c04d,
  0x01cd0000004ee20a02202c1faf28afb91e2a2fe1a6c27e480ce2077ccff57cd7e8eac1b658cf2b9d92600208616e7963617374390769726f6e646e73036e657400c3fd400b0209616e79636173743130c031c3fd400c0209616e79636173743233c031c3fd410b0209616e79636173743234c031c3fd410c03c0282a0105b000040000000000000000000b03c0432a0105b000040000000000000000000c03c0542a0105b000050000000000000000000b03c0652a0105b000050000000000000000000c01c02801c04301c05401c065,
  0x01a600000203646e73026264007b310c70020562642d6e7307616e796361737403706368036e657400cc3dd86c02057375726d61046274636c036e6574c006cb70c2e802066a616d756e61c031cb70c2e703c0022407500000880005000000000000000303c00f200105000014610800ad00000000000103c02b2407500000880004000000000000023203c0412407500000880004000000000000023101c00201c00f01c02b01c041,
  0x010f010000317808022075141e9b1188a95a7a855bf47e278a742a5e3f2ddeed8e995d749d48f2f0e72d00ce140802205485ac33dd7c7ed237ea2a4bd269731c816960fe181042024484b5ceca6ecc9f020161056e7373657402626500c2000601020162c050c2002501020163c050c2002b01020164c050c2002c01020179c050781dfd0802017ac050c200192403c04e2001067800090000000000000000000103c05f2001067800640000000000000000000103c0682001067800680000000000000000000103c07120010678006c0000000000000000000103c07a20010dcd00070000000000000000000803c0832001067800200000000000000000003601c04e01c05f01c06801c07101c07a01c083,
  0x010a0100000ca2070114d046927a7b31b59e7aaa612d56e1f8da77cc9e91000ca20702203bad4fe26537c9b141eba6cb27f3e5640f302028b78c767d1780f1d85fb659d10011fe0701145016cfafb58908893b6288c1150b6debb1c0436f0011fe070220a5f26c1dd2b6f050bf9c1439e0c53295e502769be20991866084aaef6ba2ed7d02026130036e69630562656174730041163c0902026132c08541163f0902026230c08541163d0902026330c08541163e0903c0822a018840003a0000000000000000000903c0952a018840003d0000000000000000000903c09f2a018840003b0000000000000000000903c0a92a018840003c0000000000000000000901c08201c09501c09f01c0a9,
  0x01d30000008a0c0802202489479f7a6e57341c7c5508c55113491c519dd846258a6593c4d1aba57d463e00ccb6080220c5c45b79dbe67a132237b020f4966fe32fbe61553487e38d47918561568e9957020161036e69630662656175747900c2a9da77020162c050b9184077020163c050d412f877020164c050d412f97703c04e2001067c13cc0000000000000001011903c0612a042b0013cc0000000000000001011903c06a2a042b0013ee0000000000000000011903c0732a042b0013ff0000000000000000011901c04e01c06101c06a01c073,
  0x01e9000000f19908022011485cf30d665a82c06691c37983fd4eca2068add702ace7374ec00e800f788f020161036e696304626565720025d1c00a020162c02a25d1c20a020163c02a25d1c40a020178c02a9c9aac52020179c02a9c9aad5202017ac02a9c9aae5203c02820010dcd00010000000000000000001003c03920010dcd00020000000000000000001003c04220010dcd00030000000000000000001003c04b261000a110740000000000000001008203c054261000a110750000000000000001008203c05d261000a110760000000000000001008201c02801c03901c04201c04b01c05401c05d,
  0x0142010000dbc1080220cf15159ec1841ae2cf91d95b5889eb14574efbcfb069132903e025345a39af7b0204646e7331036e69630762656e746c657900d5f8db050204646e7332c02d673153050204646e7333c02dd5f8df050204646e7334c02d2be633050204646e7361c02d9c9a64030204646e7362c02d9c9a65030204646e7363c02d9c9a66030204646e7364c02d9c9a670303c0282a01061804030000000000000000000503c03f2401fd8004030000000000000000000503c04b2a01061804070000000000000000000503c0572401fd8004070000000000000000000503c06320010502ad090000000000000000000303c06f200105022eda0000000000000000000303c07b261000a110090000000000000000000303c087261000a110100000000000000000000301c02801c03f01c04b01c05701c06301c06f01c07b01c087,
  0x01b80000006350080220479dd34641c6386048518f9a39aafba26172060ee36a91f478ebe521aa1cffd500bb66080220b1ddc962a9293cda1c2ae8f951c86a8f391248c50751ad61f642d46d0f644b4102016103646e73036e6963066265726c696e00c200191002016dc050c2001a0502016ec050c200180503c04e2001067800200000000000000000001603c0652001067c10e00000000000000000000503c06e2001067800240000000000000000000501c04e01c06501c06e,
  0x01ab000000a13f080220d0c266b147e9fa7122215ccca36b23d43407bd2f03b2e3b6e917d350b31aa5fd020161036e6963046265737400c2a9da6d020162c02ab918406d020163c02ad412f86d020164c02ad412f96d03c0282001067c13cc0000000000000001010903c0392a042b0013cc0000000000000001010903c0422a042b0013ee0000000000000000010903c04b2a042b0013ff0000000000000000010901c02801c03901c04201c04b,
  0x01b200000005dd0802206e98e0865f6a8cd3e69f0a03cb0d9d80333a31d113ad85bba7571f87262c5d3202026130036e69630762657374627579004116d80902026132c02b4116db0902026230c02b4116d90902026330c02b4116da0903c0282a01884000d20000000000000000000903c03d2a01884000d50000000000000000000903c0472a01884000d30000000000000000000903c0512a01884000d40000000000000000000901c02801c03d01c04701c051,
  0x01ae000000876a080220e514f93c9ff69ec196e47cdfa00e39946382363cf2cac7df3df562f35b31a2bc02026130036e696303626574004116241102026132c02b4116271102026230c02b4116251102026330c02b4116261103c0282a01884000260000000000000000001703c0392a01884000290000000000000000001703c0432a01884000270000000000000000001703c04d2a01884000280000000000000000001701c02801c03901c04301c04d,
  0x0180000002016108726567697374726502626600d43492320203706368026e73c004cc3dd88d02056e732d6266036e696302667200c2000901020c63656e7376726e733030303103697264c02e5bcb209303c016200105000014614100ad00000000000103c02420010678000c0000000000000000000101c00201c01601c02401c037,
  0x01e7000000e4ee080220305151ebb808cfa54a262403982d4c27e081b1c4accdad4b4d83ce091188b1a0020161036e696302626700c05c8163020162c02ac14403e8020163c02ac1446363020164c02ac2002001020165c02ab98f5001020170c02acc3dd86e03c0282a026a8000000000019200920129009903c0372a026a8000000000019300680003023203c0402a026a8000000000019300680099009903c04920010678003c0000000000000000000103c0522a026a80530e0000000000000000000103c05b200105000014611000ad00000000000101c02801c03701c04001c04901c05201c05b,
  0x01a9000000a433080220de6b7cef6b195f0aac140c56c68868105d8f05967342c96a8192efe7b433bd1e020161036e696302626800c2a9da73020162c02ab9184073020163c02ad412f873020164c02ad412f97303c0282001067c13cc0000000000000001011503c0372a042b0013cc0000000000000001011503c0402a042b0013ee0000000000000000011503c0492a042b0013ff0000000000000000011501c02801c03701c04001c049,
  0x01b40000003396080220bcf1efc6d85ca9939af95be715d7093082bac953e8539f88d21b16054d5a22ca0203616331056e73746c6403636f6d00c02aad1e0203616332c02cc02aae1e0203616333c02cc02aaf1e0203616334c02cc02ab01e03c0282001050001200000000000000000003003c03c2001050001210000000000000000003003c0472001050001220000000000000000003003c0522001050001230000000000000000003001c02801c03c01c04701c052,
  0x01a6000002026269056363746c640761757468646e730472697065036e657400c100093e02026e73036e696302626900c40208cd02036e7331c025c4020ccd0205616e796e73c025cc3dd83d02056e732d626907616672696e6963c018c4d8a81703c0022001067c00e00000000000000000006203c03d200105000014606100ad00000000000103c04a200143f801200000000000000000002301c00201c02201c03201c03d01c04a,
  0x01f4000000027a080220c09ed93543e2a43516c5379a9ebd54364d4226015112cdfb24199a7f91936ddc020161036e6963056269626c650025d1c00a020162c02a25d1c20a020163c02a25d1c40a02036e733103646e73c02a9c9aa96402036e7332c0509c9aaa6402036e7333c0509c9aab6403c02820010dcd00010000000000000000001003c03a20010dcd00020000000000000000001003c04320010dcd00030000000000000000001003c04c261000a110710000000000000001006403c05b261000a110720000000000000001006403c066261000a110730000000000000001006401c02801c03a01c04301c04c01c05b01c066,
  0x01f20000004e97080220eb851ab057822a4c0092b8a500066227424c6bce0e50b45d40b21476b18056b8020161036e6963036269640025d1c00a020162c02a25d1c20a020163c02a25d1c40a02036e733103646e73c02a9c9a901902036e7332c04e9c9a911902036e7333c04e9c9a9f1903c02820010dcd00010000000000000000001003c03820010dcd00020000000000000000001003c04120010dcd00030000000000000000001003c04a261000a110710000000000000000001903c059261000a110720000000000000000001903c064261000a110730000000000000000001901c02801c03801c04101c04a01c05901c064,
  0x01fb0000007f6608022065ffd9ef34ae62688731d986023b138529964729aa847bf3b3fd0730202e7eb4020476306e30036e69630462696b65004116182c020476306e31c02d4116192c020476306e32c02d41161a2c020476306e33c02da1e80c2c020476326e30c02d41161b2c020476326e31c02da1e80d2c03c0282a018840001a0000000000000000004403c03c2a018840001b0000000000000000004403c0482a018840001c0000000000000000004403c0542a01884000f60000000000000000004403c0602a018840001d0000000000000000004403c06c2a01884000f70000000000000000004401c02801c03c01c04801c05401c06001c06c,
  0x01b4000000d69b080220aa18f258897855e86489c4a522ea45da55918bcd1c6dd418322081331df89e850203616331056e73746c6403636f6d00c02aad1e0203616332c02cc02aae1e0203616333c02cc02aaf1e0203616334c02cc02ab01e03c0282001050001200000000000000000003003c03c2001050001210000000000000000003003c0472001050001220000000000000000003003c0522001050001230000000000000000003001c02801c03c01c04701c052,
  0x01fc000000659208022003bdacc0aa8ec5264be4aeae020b6868cf219757cffb96e809b02af985571bd2020476306e30036e69630562696e676f004116203e020476306e31c02d4116213e020476306e32c02d4116223e020476306e33c02da1e8103e020476326e30c02d4116233e020476326e31c02da1e8113e03c0282a01884000220000000000000000006203c03d2a01884000230000000000000000006203c0492a01884000240000000000000000006203c0552a01884000fa0000000000000000006203c0612a01884000250000000000000000006203c06d2a01884000fb0000000000000000006201c02801c03d01c04901c05501c06101c06d,
  0x01ae0000003fce080220aeaf99ce9c6f64b1607605dae987d3bd0acd4c5490691322b98c592c9c27b14b02026130036e69630362696f004116540902026132c02b4116570902026230c02b4116550902026330c02b4116560903c0282a01884000520000000000000000000903c0392a01884000550000000000000000000903c0432a01884000530000000000000000000903c04d2a01884000540000000000000000000901c02801c03901c04301c04d,
  0x01c300000033130802205114c10474c1467017a378da75e6845511f78fea480a4469a3bafc54b2738e110201610467746c640362697a009c9a7c41020162c02a9c9a7d41020163c02a9c9a7f41020177c02a25d1c00d020178c02a25d1c20d020179c02a25d1c40d03c02820010502ad090000000000000000003003c04b20010dcd00010000000000000000001303c05420010dcd00020000000000000000001303c05d20010dcd00030000000000000000001301c02801c03901c04201c04b01c05401c05d,
  0x01c100000067f9080220f408c0b3c28d87a76175348b27f6d26ca47231fc29071ab6b5f849777c6548b502036e7331036e696302626a009a411cda02036e7332c02c2955bf020203706368c02ccc3dd87d02056e732d626a036e696302667200c200090102056e732d626a07616672696e6963036e657400c4d8a82103c044200105000014612500ad00000000000103c04f20010678000c0000000000000000000103c062200143f801200000000000000000003301c02801c03901c04401c04f01c062,
  0x01b00000007093080220fa6792252a660261b2c191a71bcedbe4cdd7bf61c33aa5f04e558abeb8f96bd902026130036e696305626c61636b004116442102026132c02b4116472102026230c02b4116452102026330c02b4116462103c0282a01884000420000000000000000003303c03b2a01884000450000000000000000003303c0452a01884000430000000000000000003303c04f2a01884000440000000000000000003301c02801c03b01c04501c04f,
  0x01b700000074cc0d0220fde16db12fdbc44766c6f83f62e029570becd685cd245da8b9889ee75e89a75c02036e73310b756e697265676973747279036e6574004060010102036e73320b756e69726567697374727904696e666f004060020102036e7333c02cb99fc50302036e7334c046b99fc60303c0282620005740000001000000000000000103c05d2620010a80aa0000000000000000000303c0682620010a80ab0000000000000000000301c02801c04201c05d01c068,
  0x01b60000004e5b0802207cc46ee5db147183b41bda17ac3a5ce97963064f139e80a7c2b60aa8bd5200e702026130036e69630b626c6f636b6275737465720041165c1902026132c02b41165f1902026230c02b41165d1902026330c02b41165e1903c0282a018840005a0000000000000000002503c0412a018840005d0000000000000000002503c04b2a018840005b0000000000000000002503c0552a018840005c0000000000000000002501c02801c04101c04b01c055,
  0x01eb0000004250080114f4535c694f892ffeb740c35cc9665b52e360df7d0042500802209862de44e1e7e44215165000c4b87bd3f46d439c686166da0ca79e06896958b700abc708022094023be3a769704f45ecb9fea13bbbab6adcdb4d8bb39e621e3cbf223fb5ca53020161036e696304626c6f6700c2a9da5e020162c06ab918405e020163c06ad412f85e020164c06ad412f95e03c0682001067c13cc0000000000000001009403c0792a042b0013cc0000000000000001009403c0822a042b0013ee0000000000000000009403c08b2a042b0013ff0000000000000000009401c06801c07901c08201c08b,
  0x01b4000000b50208022098a66be30959371e15eaf5d4a65ada3393050610a2e5b7ae321b694c876258c90203616331056e73746c6403636f6d00c02aad1e0203616332c02cc02aae1e0203616333c02cc02aaf1e0203616334c02cc02ab01e03c0282001050001200000000000000000003003c03c2001050001210000000000000000003003c0472001050001220000000000000000003003c0522001050001230000000000000000003001c02801c03c01c04701c052,
  0x01cf00000032d7080220337188914037f0d7831c5c732516d7310c1d291f55ecfe67cd8b9f4ced0b706a02026130036e696304626c75650041161c0902026132c02b41161f0902026230c02b41161d0902026232c02b41161f0d02026330c02b41161e0903c0282a018840001e0000000000000000000903c03a2a01884000210000000000000000000903c0442a018840001f0000000000000000000903c04e2a01884000210000000000000000001303c0582a01884000200000000000000000000901c02801c03a01c04401c04e01c058,
  0x010c01000093b2080220e3e102b0b9334884c32ba5ee04c628e94d9d66b9026287109066ebeeecfebc200202613002626d0b6166696c6961732d6e737404696e666f00c7fe3b0902026132c02bc7f974090202623002626d0b6166696c6961732d6e7374036f726700c7fe3c0902026232c052c7f97c0902026330c02bc7fe3d0902026430c052c7fe3e0903c0282001050000250000000000000000000903c0452001050000440000000000000000000903c04f2001050000260000000000000000000903c06b20010500004c0000000000000000000903c0752001050000270000000000000000000903c07f2001050000280000000000000000000901c02801c04501c04f01c06b01c07501c07f,
  0x01b400000058a10802200ee826ffe41ead6fc120d8d76539643da18a56d0b19bb23e8a92ef083fcb09fb0203616331056e73746c6403636f6d00c02aad1e0203616332c02cc02aae1e0203616333c02cc02aaf1e0203616334c02cc02ab01e03c0282001050001200000000000000000003003c03c2001050001210000000000000000003003c0472001050001220000000000000000003003c0522001050001230000000000000000003001c02801c03c01c04701c052,
  0x01d0000000a07c0802206c86d7e525248df05c8dd7720648d4cb629daae2dcd163bfc74d28312fd5311a00aa3b080220b543b5adba44e6e32d11c93bb4e729d80fa1197f59b2ae505a1e292605234793020161036e696303626d7700c2a9da4c020162c050b918404c020163c050d412f84c020164c050d412f94c03c04e2001067c13cc0000000000000001007603c05e2a042b0013cc0000000000000001007603c0672a042b0013ee0000000000000000007603c0702a042b0013ff0000000000000000007601c04e01c05e01c06701c070,
  0x01a4000000a66c0802206819a97fb70420cf6b528cbf909312a834180660a098e2a2650a5ed58849e1da02036e733105626e6e696302626e00c200012102036e7332c02cca5dd6a302036e73340561706e6963036e657400ca0c1f350205626e2d6e7307616e796361737403706368c050cc3dd85703c04620010dd800120000000000000000005303c05a200105000014608700ad00000000000101c02801c03b01c04601c05a,
  0x01b5000000cae108022084170b93b26c6d2041ae501a63ed72aad0fe327b139c21ed23329717f1dd203402026130036e69630a626e7070617269626173004116400902026132c02b4116430902026230c02b4116410902026330c02b4116420903c0282a018840003e0000000000000000000903c0402a01884000410000000000000000000903c04a2a018840003f0000000000000000000903c0542a01884000400000000000000000000901c02801c04001c04a01c054,
  0x0186000002026e7303646e7302627200c8a0000502026e73036e696302626f00a672012802036e7332036e696302667200c05d00040207616e7963617374c012cc3dd83003c002200112ff00000a20000000000000000503c0222001066030050001000000000001000203c033200105000014604800ad00000000000101c00201c01201c02201c033,
  0x01d200000000b8080220a4a33b365286abb2176f9f617093d4dade9cd2af1c8b4955db2b0ad92b6940d500ea4c080220a5e1e3d7c3a1cd95834be1a4f1b403eb0018e4918d107c25a61360b2b7e585dd020161036e696305626f61747300c2a9da86020162c050b9184086020163c050d412f886020164c050d412f98603c04e2001067c13cc0000000000000001013403c0602a042b0013cc0000000000000001013403c0692a042b0013ee0000000000000000013403c0722a042b0013ff0000000000000000013401c04e01c06001c06901c072,
  0x01b500000090fd08022098508b91e23eef16223b93512b6ffd370f83ced809a7a157a98a8b07be84e0ce02026130036e69630a626f656872696e676572004116bc1102026132c02b4116bf1102026230c02b4116bd1102026330c02b4116be1103c0282a01884000b60000000000000000001703c0402a01884000b90000000000000000001703c04a2a01884000b70000000000000000001703c0542a01884000b80000000000000000001701c02801c04001c04a01c054,
  0x01b40000008ad50802205bf7c416fa5dba14158b807ff4eb2f0438db45d35d0f0af4f6feff148399b4550203616331056e73746c6403636f6d00c02aad1e0203616332c02cc02aae1e0203616333c02cc02aaf1e0203616334c02cc02ab01e03c0282001050001200000000000000000003003c03c2001050001210000000000000000003003c0472001050001220000000000000000003003c0522001050001230000000000000000003001c02801c03c01c04701c052,
  0x01e700000009a70d0220351532c0b3a206b6b0f3b70db8dc5f588ca48a9a0aadf743b483aaeb063af2ed02016103646e7302627200c8db940a020162c02ac8bd290a020163c02ac8c0e90a020164c02ac8db9a0a020165c02ac8e5f80a020166c02ac8db9f0a03c028200112f800060000000000000000001003c037200112f800080000000000000000001003c040200112f8000a0000000000000000001003c049200112f800040000000000000000001003c052200112f800020000000000000000001003c05b200112f8000c0000000000000000001001c02801c03701c04001c04901c05201c05b,
  0x01ab00000088ba080220fa12aa0eba1f60642345ceefbdd7a36ec310eb1602547beaad5a1793ecca9dd5020161036e696304626f6e6400c2a9da55020162c02ab9184055020163c02ad412f855020164c02ad412f95503c0282001067c13cc0000000000000001008503c0392a042b0013cc0000000000000001008503c0422a042b0013ee0000000000000000008503c04b2a042b0013ff0000000000000000008501c02801c03901c04201c04b,
  0x01fa000000a4bf080220abe304d422168068884fcb9bb10aa300ad2340ee85a894740d127cf0f97e206e02076e732d746c643116636861726c6573746f6e726f6164726567697374727903636f6d00d8ef206902076e732d746c6432c030d8ef226902076e732d746c6433c030d8ef246902076e732d746c6434c030d8ef266902076e732d746c6435c030d8ef3c6903c0282001486048020032000000000000006903c0512001486048020034000000000000006903c0602001486048020036000000000000006903c06f2001486048020038000000000000006903c07e2001486048050000000000000000006901c02801c05101c06001c06f01c07e,
  0x013f010000ad0908022066bf547095380bd991dead7d74cefd93b8cfb8a8eabb9f43881b6842de8372370204646e7331036e696304626f6f6b00d5f8da3d0204646e7332c02d6731523d0204646e7333c02dd5f8de3d0204646e7334c02d2be6323d0204646e7361c02d9c9a64030204646e7362c02d9c9a65030204646e7363c02d9c9a66030204646e7364c02d9c9a670303c0282a01061804020000000000000000006103c03c2401fd8004020000000000000000006103c0482a01061804060000000000000000006103c0542401fd8004060000000000000000006103c06020010502ad090000000000000000000303c06c200105022eda0000000000000000000303c078261000a110090000000000000000000303c084261000a110100000000000000000000301c02801c03c01c04801c05401c06001c06c01c07801c084,
  0x01f6000000155e0802200e779c706c569b36a19a7d788c043979b9ab862ef84e913b51920a9c4106c9ab020161036e696307626f6f6b696e670025d1c009020162c02a25d1c209020163c02a25d1c40902036e733103646e73c02a9c9a901b02036e7332c0529c9a911b02036e7333c0529c9a9f1b03c02820010dcd00010000000000000000000903c03c20010dcd00020000000000000000000903c04520010dcd00030000000000000000000903c04e261000a110710000000000000000001b03c05d261000a110720000000000000000001b03c068261000a110730000000000000000001b01c02801c03c01c04501c04e01c05d01c068,
  0x01b4000000877b08022017bf6449d9224ca2d30c4b3b941066b9fe7e5e0ee4e6de60dc14ba83c0eb4fce0203616331056e73746c6403636f6d00c02aad1e0203616332c02cc02aae1e0203616333c02cc02aaf1e0203616334c02cc02ab01e03c0282001050001200000000000000000003003c03c2001050001210000000000000000003003c0472001050001220000000000000000003003c0522001050001230000000000000000003001c02801c03c01c04701c052,
  0x018e000000b1770d022016d460de3b5d232225100e179ab80bd20a398618160c5b1c934a39f5e207ed45020164036e696302667200c200090102016603657874c02ac2926a2e020167c039c200240103c02820010678000c0000000000000000000103c0372001067c10100011000000000000005303c04420010678004c0000000000000000000101c02801c03701c044,
  0x01eb00000004a508022032da17d1e9cd92eebd7214b36b30fa8c8956abba7435f46b3a55d1455d8e01a2020161036e696306626f73746f6e0025d1c00a020162c02a25d1c20a020163c02a25d1c40a020178c02a9c9aac52020179c02a9c9aad5202017ac02a9c9aae5203c02820010dcd00010000000000000000001003c03b20010dcd00020000000000000000001003c04420010dcd00030000000000000000001003c04d261000a110740000000000000001008203c056261000a110750000000000000001008203c05f261000a110760000000000000001008201c02801c03b01c04401c04d01c05601c05f,
  0x013e010000e575080220eca26804355a4735caa906601c7d388af755ab40f599d02f29d16f347705ee420204646e7331036e696303626f7400d5f8da370204646e7332c02d673152370204646e7333c02dd5f8de370204646e7334c02d2be632370204646e7361c02d9c9a64030204646e7362c02d9c9a65030204646e7363c02d9c9a66030204646e7364c02d9c9a670303c0282a01061804020000000000000000005503c03b2401fd8004020000000000000000005503c0472a01061804060000000000000000005503c0532401fd8004060000000000000000005503c05f20010502ad090000000000000000000303c06b200105022eda0000000000000000000303c077261000a110090000000000000000000303c083261000a110100000000000000000000301c02801c03b01c04701c05301c05f01c06b01c07701c083,
  0x01ff0000007a7a08022083ffdc35018a75a4c287e7f29b0181ef0f7495f28e9e65ae00561ddd55942459020476306e30036e696308626f757469717565004116180c020476306e31c02d4116190c020476306e32c02d41161a0c020476306e33c02da1e80c0c020476326e30c02d41161b0c020476326e31c02da1e80d0c03c0282a018840001a0000000000000000001203c0402a018840001b0000000000000000001203c04c2a018840001c0000000000000000001203c0582a01884000f60000000000000000001203c0642a018840001d0000000000000000001203c0702a01884000f70000000000000000001201c02801c04001c04c01c05801c06401c070,
  0x01ea000000b9b6080114f59d467614d996277c9ea8e52eb920623b9fa4fe00b9b608022031cc9f53054303443fa06f368c54971d8e12c89655cb768a951d908701e8280000f70a080220f63250257503cce60195e71c2e346a2d8bde06dcbd666b9ee4f860d75988702d020161036e696303626f7800c2a9da8b020162c06ab918408b020163c06ad412f88b020164c06ad412f98b03c0682001067c13cc0000000000000001013903c0782a042b0013cc0000000000000001013903c0812a042b0013ee0000000000000000013903c08a2a042b0013ff0000000000000000013901c06801c07801c08101c08a,
  0x01e700000009a70d02205e4f35998b8f909557fa119c4cbfdca2d660a26f069ef006b403758a07d1a2e402016103646e7302627200c8db940a020162c02ac8bd290a020163c02ac8c0e90a020164c02ac8db9a0a020165c02ac8e5f80a020166c02ac8db9f0a03c028200112f800060000000000000000001003c037200112f800080000000000000000001003c040200112f8000a0000000000000000001003c049200112f800040000000000000000001003c052200112f800020000000000000000001003c05b200112f8000c0000000000000000001001c02801c03701c04001c04901c05201c05b,
  0x01b3000000efbf080220a0ffe5a2c7c1cb086855963d43117563e509ca1e6b27d87ef9ce011c195b834402026130036e696308627261646573636f0041167c0202026132c02b41167f0202026230c02b41167d0202026330c02b41167e0203c0282a018840007a0000000000000000000203c03e2a018840007d0000000000000000000203c0482a018840007b0000000000000000000203c0522a018840007c0000000000000000000201c02801c03e01c04801c052,
  0x019f000000217f080220aa4b874cf014a4df2e7dc9e5a6b8b3efa5dc966a834f4802beb19b5cd74424030201610b676d6f7265676973747279036e65740025d1c004020162c02a25d1c20402016bc02a25d1c40402016cc02a25d1c60403c02820010dcd00010000000000000000000403c04020010dcd00020000000000000000000403c05220010dcd00040000000000000000000401c02801c04001c04901c052,
  0x0143010000b9d8080220ccc4ce45aacb1c0ecd8181d968b86beff3b34d1a71576f137ca43529ff8f12bb0204646e7331036e69630862726f616477617900d5f8d9260204646e7332c02d673151260204646e7333c02dd5f8dd260204646e7334c02d2be631260204646e7361c02d9c9a64030204646e7362c02d9c9a65030204646e7363c02d9c9a66030204646e7364c02d9c9a670303c0282a01061804010000000000000000003803c0402401fd8004010000000000000000003803c04c2a01061804050000000000000000003803c0582401fd8004050000000000000000003803c06420010502ad090000000000000000000303c070200105022eda0000000000000000000303c07c261000a110090000000000000000000303c088261000a110100000000000000000000301c02801c04001c04c01c05801c06401c07001c07c01c088,
  0x01fd000000222a0802207b7c64b10eb518a94bbfd3a75a5a31f9e3c67a18bab01113a136dfd08d44b4a1020476306e30036e69630662726f6b65720041161443020476306e31c02d41161543020476306e32c02d41161643020476306e33c02da1e80a43020476326e30c02d41161743020476326e31c02da1e80b4303c0282a01884000160000000000000000006703c03e2a01884000170000000000000000006703c04a2a01884000180000000000000000006703c0562a01884000f40000000000000000006703c0622a01884000190000000000000000006703c06e2a01884000f50000000000000000006701c02801c03e01c04a01c05601c06201c06e,
  0x019f0000001adb0802208955e563809e8dfe8f6b18fb0b23ad043dc6957e2aac1a5f2c8b4ca3244270eb0201610b676d6f7265676973747279036e65740025d1c004020162c02a25d1c20402016bc02a25d1c40402016cc02a25d1c60403c02820010dcd00010000000000000000000403c04020010dcd00020000000000000000000403c05220010dcd00040000000000000000000401c02801c04001c04901c052,
  0x0115010000706c080220ea50cab83940b6aa791bd1a0c47abd6c8549d43cf2776a48fac633260f3bee9300f3d3080220d753ce72a834c746df60a7d2c7bd6e64151c576fcd066f95e451c3b5955d8294020161056e73736574086272757373656c7300c2000601020162c050c2002501020163c050c2002b01020164c050c2002c01020179c050781dfd0802017ac050c200190e03c04e2001067800090000000000000000000103c0652001067800640000000000000000000103c06e2001067800680000000000000000000103c07720010678006c0000000000000000000103c08020010dcd00070000000000000000000803c0892001067800200000000000000000001401c04e01c06501c06e01c07701c08001c089,
  0x017b000002046e7333360463646e73036e657400c20001240205616e796e7303646e7302627300cc3dd8440205616e796e7303706368c00ccc3dd80403c0022001067800040000000000000000002403c016200105000014606800ad00000000000103c029200105000014600400ad00000000000101c00201c01601c029,
  0x01140100003a8d08022097023b81563cd7e07bf03eb44ecbac8f11610c00ffd41f62b254ab95d643d91102026e7303697475026368009c6ac07902036e7331076472756b6e657402627400ca9080c802036e7332c03cca9080d202036e7333c03ccc3dd8110206617574683030026e73027575036e657400c60601410206617574683631c06ac60601b6020670686c6f656d07756f7265676f6e036564750080df202303c0282a00758000602141000000000000001003c0382405d00000000100000000000000020003c04d2405d00000000100000000000000021003c058200105000014601700ad00000000000103c088200104680d0100200000000080df202301c02801c03801c04d01c05801c06301c07a01c088,
  0x01d2000000783208022068e3857b46d09fe8c87b6144a5d61f9613440a6407331ac598970c29809b56f700d6300802208d0f5d4d637295690e42166227e1a5fd97f412e9ebdc1cb30254f7b8f8aa3792020161036e6963056275696c6400c2a9da14020162c050b9184014020163c050d412f814020164c050d412f91403c04e2001067c13cc0000000000000001002003c0602a042b0013cc0000000000000001002003c0692a042b0013ee0000000000000000002003c0722a042b0013ff0000000000000000002001c04e01c06001c06901c072,
  0x01ff000000fe410802200d0f85296845893f83bf7db013340ec59238c81ad4b6e3da33ba5b1632a748c3020476306e30036e6963086275696c646572730041161c18020476306e31c02d41161d18020476306e32c02d41161e18020476306e33c02da1e80e18020476326e30c02d41161f18020476326e31c02da1e80f1803c0282a018840001e0000000000000000002403c0402a018840001f0000000000000000002403c04c2a01884000200000000000000000002403c0582a01884000f80000000000000000002403c0642a01884000210000000000000000002403c0702a01884000f90000000000000000002401c02801c04001c04c01c05801c06401c070,
  0x01ff0000006d5d0802207f17414b2ebdd17b8bf3f1205bc82e2ee158df8de4cf46daceff55447f0ee429020476306e30036e696308627573696e6573730041162026020476306e31c02d41162126020476306e32c02d41162226020476306e33c02da1e81026020476326e30c02d41162326020476326e31c02da1e8112603c0282a01884000220000000000000000003803c0402a01884000230000000000000000003803c04c2a01884000240000000000000000003803c0582a01884000fa0000000000000000003803c0642a01884000250000000000000000003803c0702a01884000fb0000000000000000003801c02801c04001c04c01c05801c06401c070,
  0x013e010000401b080220c9c2d0f38695bcf73fe5c6fe4a049282848f45f887c4c72b337bca9fb50abc330204646e7331036e69630362757900d5f8da3e0204646e7332c02d6731523e0204646e7333c02dd5f8de3e0204646e7334c02d2be6323e0204646e7361c02d9c9a64030204646e7362c02d9c9a65030204646e7363c02d9c9a66030204646e7364c02d9c9a670303c0282a01061804020000000000000000006203c03b2401fd8004020000000000000000006203c0472a01061804060000000000000000006203c0532401fd8004060000000000000000006203c05f20010502ad090000000000000000000303c06b200105022eda0000000000000000000303c077261000a110090000000000000000000303c083261000a110100000000000000000000301c02801c03b01c04701c05301c05f01c06b01c07701c083,
  0x01f30000005539080220eea009d624a40b9afaa8f0fa040a3d0fc900ab565e27aa90cebb67b481c9816c020161036e69630462757a7a0025d1c00a020162c02a25d1c20a020163c02a25d1c40a02036e733103646e73c02a9c9a901d02036e7332c04f9c9a911d02036e7333c04f9c9a9f1d03c02820010dcd00010000000000000000001003c03920010dcd00020000000000000000001003c04220010dcd00030000000000000000001003c04b261000a110710000000000000000001d03c05a261000a110720000000000000000001d03c065261000a110730000000000000000001d01c02801c03901c04201c04b01c05a01c065,
  0x010001000084080d02205fa7fb1c36c810cbbeea4557ce1b96175fb14b5e5f400a9d7aa36ba6b60fbd0e020178036e6963026e6f0080270828020179c02ac14b041602017ac02a9e26088502026e6e07756e696e657474c02e9e2600b502036e6163c02e802702160206736572766572056e6f726475036e657400c10afc1303c028200107000000412f000000000000004003c037200108c082000001000000000000000203c040200107000000052d015800380008013303c04920010700000005030000000000aa530203c05b2001070000000102000000000000aa5303c0662001094800040002000000000000001901c02801c03701c04001c04901c05b01c066,
  0x01b700000203706368036e6963036e657402627700cc3dd8460204646e7331c006a8a762e202056e732d627707616672696e6963036e657400c4d8a84802066d617374657203627463c00aa8a7a82503c002200105000014607000ad00000000000103c0172c0fff0000010003000000000000022603c023200143f801200000000000000000007203c03b2c0fff0000000006000000000000000303c03b2c0fff0000000006000000000000000501c00201c01701c02301c03b,
  0x01e200000001ef0d02202d14284f8e47b53f839bd8068d438680b4b6c7a645769c9d89b47df0c5359b7b0204646e733103746c64096265636c6f7564627903636f6d005d7d19480204646e7332c02d5d7d19490204646e7333c02db96253040204646e7334c02db848115e0204646e7335c02d36b423cb03c0282a00c827000a0002000000000000000203c0452a00c827000a0003000000000000000203c0512a01ba80000e000c000100000000004c03c05d26001f1c0e9d85008445614ff5829e8703c0692406da12083487003ff59f9df1cc863a01c02801c04501c05101c05d01c069,
  0x01120100005962080220088ad52a5e8e9adf54345cb21753a54f71bfb8e2674f08b02b64ab53f45eab9f02026130056363746c640b6166696c6961732d6e737404696e666f00c7fe3b0102026132c02bc7f9740102026230056363746c640b6166696c6961732d6e7374036f726700c7fe3c0102026232c055c7f97c0102026330c02bc7fe3d0102026430c055c7fe3e0103c0282001050000250000000000000000000103c0482001050000440000000000000000000103c0522001050000260000000000000000000103c07120010500004c0000000000000000000103c07b2001050000270000000000000000000103c0852001050000280000000000000000000101c02801c04801c05201c07101c07b01c085,
  0x018e000000526d0d02201142355e16da610e0872122f8e5f542ee0d3668abb727f3a031e2c14757b2445020164036e696302667200c200090102016603657874c02ac2926a2e020167c039c200240103c02820010678000c0000000000000000000103c0372001067c10100011000000000000005303c04420010678004c0000000000000000000101c02801c03701c044,
  0x01b2000000ab0b0802202af70b49c542b7dacec2d4754651598b740ef1d79e7a839b32bc7f7e96039a2c0201630a63612d7365727665727302636100b99fc40202016ac02ac6b6a701020178c02ac7fdfa440203616e79c02ac704900203c0282620010a80530000000000000000000203c03e2001050000830000000000000000000103c0472620010a80ba0000000000000000006803c0502001050000a70000000000000000000201c02801c03e01c04701c050,
  0x01fa0000008413080220b0ac01be28d9aa827609e9cee95d686c81d7fcf279d75b54444cc00d9126d8cb020476306e30036e6963036361620041161c1d020476306e31c02d41161d1d020476306e32c02d41161e1d020476306e33c02da1e80e1d020476326e30c02d41161f1d020476326e31c02da1e80f1d03c0282a018840001e0000000000000000002903c03b2a018840001f0000000000000000002903c0472a01884000200000000000000000002903c0532a01884000f80000000000000000002903c05f2a01884000210000000000000000002903c06b2a01884000f90000000000000000002901c02801c03b01c04701c05301c05f01c06b,
  0x01fb0000004f3c0802208c701b4ba51b9cd153830f6fa9a50eeee63a98032728aa974d9466d7ee0e1fc4020476306e30036e69630463616665004116142c020476306e31c02d4116152c020476306e32c02d4116162c020476306e33c02da1e80a2c020476326e30c02d4116172c020476326e31c02da1e80b2c03c0282a01884000160000000000000000004403c03c2a01884000170000000000000000004403c0482a01884000180000000000000000004403c0542a01884000f40000000000000000004403c0602a01884000190000000000000000004403c06c2a01884000f50000000000000000004401c02801c03c01c04801c05401c06001c06c,
  0x01fa00000048760802205d5349186bbcc0b98dcc5662af9140ffe0b36f982043e2888043ba80665b08e302076e732d746c643116636861726c6573746f6e726f6164726567697374727903636f6d00d8ef206902076e732d746c6432c030d8ef226902076e732d746c6433c030d8ef246902076e732d746c6434c030d8ef266902076e732d746c6435c030d8ef3c6903c0282001486048020032000000000000006903c0512001486048020034000000000000006903c0602001486048020036000000000000006903c06f2001486048020038000000000000006903c07e2001486048050000000000000000006901c02801c05101c06001c06f01c07e,
  0x013f010000e3f508022052a3a1c699dacb7d621a198268e5e76ab21931b19693d310595c504670e18c0e0204646e7331036e69630463616c6c00d5f8da3f0204646e7332c02d6731523f0204646e7333c02dd5f8de3f0204646e7334c02d2be6323f0204646e7361c02d9c9a64030204646e7362c02d9c9a65030204646e7363c02d9c9a66030204646e7364c02d9c9a670303c0282a01061804020000000000000000006303c03c2401fd8004020000000000000000006303c0482a01061804060000000000000000006303c0542401fd8004060000000000000000006303c06020010502ad090000000000000000000303c06c200105022eda0000000000000000000303c078261000a110090000000000000000000303c084261000a110100000000000000000000301c02801c03c01c04801c05401c06001c06c01c07801c084,
  0x01fa00000011ad080220af8c19b09ce15428675bd900e02276bfd651f263c822c7393ee3ab06791eeaf9020161036e69630b63616c76696e6b6c65696e0025d1c009020162c02a25d1c209020163c02a25d1c40902036e733103646e73c02a9c9a901f02036e7332c0569c9a911f02036e7333c0569c9a9f1f03c02820010dcd00010000000000000000000903c04020010dcd00020000000000000000000903c04920010dcd00030000000000000000000903c052261000a110710000000000000000001f03c061261000a110720000000000000000001f03c06c261000a110730000000000000000001f01c02801c04001c04901c05201c06101c06c,
  0x01d000000013e1080220a17021ada565f6b13749741dc51a25b0f524bae6b753343155cfe8426cd29462006a2b080220f8c48547453f63fcc5bf62884a1f885fe50d467079e7b17da3c8d0a2dc92474d020161036e69630363616d00c2a9da4d020162c050b918404d020163c050d412f84d020164c050d412f94d03c04e2001067c13cc0000000000000001007703c05e2a042b0013cc0000000000000001007703c0672a042b0013ee0000000000000000007703c0702a042b0013ff0000000000000000007701c04e01c05e01c06701c070,
  0x01fd0000005d01080220d3a9137a8b8df3d9da4f91cf8c0ee79ca9c3577c9cb7033488c97de376d83d59020476306e30036e69630663616d657261004116181a020476306e31c02d4116191a020476306e32c02d41161a1a020476306e33c02da1e80c1a020476326e30c02d41161b1a020476326e31c02da1e80d1a03c0282a018840001a0000000000000000002603c03e2a018840001b0000000000000000002603c04a2a018840001c0000000000000000002603c0562a01884000f60000000000000000002603c0622a018840001d0000000000000000002603c06e2a01884000f70000000000000000002601c02801c03e01c04a01c05601c06201c06e,
  0x01fb000000420a080220d846cc0b84c3ee2de1a364728af8f069798d4f23aaa13d5b8bb161bd8b9d0466020476306e30036e69630463616d700041161c33020476306e31c02d41161d33020476306e32c02d41161e33020476306e33c02da1e80e33020476326e30c02d41161f33020476326e31c02da1e80f3303c0282a018840001e0000000000000000005103c03c2a018840001f0000000000000000005103c0482a01884000200000000000000000005103c0542a01884000f80000000000000000005103c0602a01884000210000000000000000005103c06c2a01884000f90000000000000000005101c02801c03c01c04801c05401c06001c06c,
  0x019f00000014690802209a1fc16a90acf3c7d3233480f45f595debdef3f71ae637bf3f8093670dda7d8a0201610b676d6f7265676973747279036e65740025d1c004020162c02a25d1c20402016bc02a25d1c40402016cc02a25d1c60403c02820010dcd00010000000000000000000403c04020010dcd00020000000000000000000403c05220010dcd00040000000000000000000401c02801c04001c04901c052,
  0x017f000000e3080802200d66710dd001e9120a86952cebb8c21aedd72d5e2ca46f0a40266529e713310702036e7370066e65746e6f6402736500c23ac6210205636f7a613107646e736e6f6465036e657400c2926a4a03c0282a0103f130330000000000000000005303c03c2001067c10100018000000000000005301c02801c03c,
  0x01fe00000024fd080220e4832b3a24031e377c4d82a22c87efadee41fac941fd1fac7a2ab5ecc9b821a0020476306e30036e6963076361706974616c0041161c0a020476306e31c02d41161d0a020476306e32c02d41161e0a020476306e33c02da1e80e0a020476326e30c02d41161f0a020476326e31c02da1e80f0a03c0282a018840001e0000000000000000001003c03f2a018840001f0000000000000000001003c04b2a01884000200000000000000000001003c0572a01884000f80000000000000000001003c0632a01884000210000000000000000001003c06f2a01884000f90000000000000000001001c02801c03f01c04b01c05701c06301c06f,
  0x01b40000003fed080220017564f7c0204b23e19605e08e5dcf57c286d6d5097b53440de91d4f04d3abac0203616331056e73746c6403636f6d00c02aad1e0203616332c02cc02aae1e0203616333c02cc02aaf1e0203616334c02cc02ab01e03c0282001050001200000000000000000003003c03c2001050001210000000000000000003003c0472001050001220000000000000000003003c0522001050001230000000000000000003001c02801c03c01c04701c052,
  0x01aa0000001895050220519d12765966b6f6e6be8236b0a6510b86025fdc7bcbaa1630b8632a9471a4d3020161036e69630363617200c2a9da82020162c02ab9184082020163c02ad412f882020164c02ad412f98203c0282001067c13cc0000000000000001013003c0382a042b0013cc0000000000000001013003c0412a042b0013ee0000000000000000013003c04a2a042b0013ff0000000000000000013001c02801c03801c04101c04a]
def data2 : List Nat := [
  0x01f6000000703c080220e06fed6fa549445050d4745f1bb53d854ab42abc74f0e7fde4e93a887e362e64020161036e6963076361726176616e0025d1c009020162c02a25d1c209020163c02a25d1c40902036e733103646e73c02a9c9a902002036e7332c0529c9a912002036e7333c0529c9a9f2003c02820010dcd00010000000000000000000903c03c20010dcd00020000000000000000000903c04520010dcd00030000000000000000000903c04e261000a110710000000000000000002003c05d261000a110720000000000000000002003c068261000a110730000000000000000002001c02801c03c01c04501c04e01c05d01c068,
  0x01fc0000009e920802200a2ec0d96558b08e99f3eb0cfa6b80ce64cb9994cf16726d56af60fd2b5d3f9d020476306e30036e69630563617264730041162032020476306e31c02d41162132020476306e32c02d41162232020476306e33c02da1e81032020476326e30c02d41162332020476326e31c02da1e8113203c0282a01884000220000000000000000005003c03d2a01884000230000000000000000005003c0492a01884000240000000000000000005003c0552a01884000fa0000000000000000005003c0612a01884000250000000000000000005003c06d2a01884000fb0000000000000000005001c02801c03d01c04901c05501c06101c06d,
  0x01fb0000004483080220549ad6134b230096ad3bf9e7af9ce64fff941884104a23428720d55e6007871a020476306e30036e696304636172650041162005020476306e31c02d41162105020476306e32c02d41162205020476306e33c02da1e81005020476326e30c02d41162305020476326e31c02da1e8110503c0282a01884000220000000000000000000503c03c2a01884000230000000000000000000503c0482a01884000240000000000000000000503c0542a01884000fa0000000000000000000503c0602a01884000250000000000000000000503c06c2a01884000fb0000000000000000000501c02801c03c01c04801c05401c06001c06c,
  0x01410100002cd8080220252513a3ade85062b3943c4d19b9de1a0ae15176ac5d0c6d15c6b79b70f36ff80204646e7331036e69630663617265657200d5f8db790204646e7332c02d673153790204646e7333c02dd5f8df790204646e7334c02d2be633790204646e7361c02d9c9a64030204646e7362c02d9c9a65030204646e7363c02d9c9a66030204646e7364c02d9c9a670303c0282a01061804030000000000000000012103c03e2401fd8004030000000000000000012103c04a2a01061804070000000000000000012103c0562401fd8004070000000000000000012103c06220010502ad090000000000000000000303c06e200105022eda0000000000000000000303c07a261000a110090000000000000000000303c086261000a110100000000000000000000301c02801c03e01c04a01c05601c06201c06e01c07a01c086,
  0x01fe00000074f8080220778e821fca074fc5e155d0866cbab618ec617866bf7a090ba85ccd71b3b249b5020476306e30036e696307636172656572730041161830020476306e31c02d41161930020476306e32c02d41161a30020476306e33c02da1e80c30020476326e30c02d41161b30020476326e31c02da1e80d3003c0282a018840001a0000000000000000004803c03f2a018840001b0000000000000000004803c04b2a018840001c0000000000000000004803c0572a01884000f60000000000000000004803c0632a018840001d0000000000000000004803c06f2a01884000f70000000000000000004801c02801c03f01c04b01c05701c06301c06f,
  0x01ab00000066a00502208253077194f36991396ac49542ed2be77d88e972d5abdb0d832f2d5cd2c7f71a020161036e6963046361727300c2a9da81020162c02ab9184081020163c02ad412f881020164c02ad412f98103c0282001067c13cc0000000000000001012903c0392a042b0013cc0000000000000001012903c0422a042b0013ee0000000000000000012903c04b2a042b0013ff0000000000000000012901c02801c03901c04201c04b,
  0x01e90000003214080220dfd8771512e3e5d525fcbef9bc186fda12797d20977a41cb663dcd18d8e38cea020161036e696304636173610025d1c00a020162c02a25d1c20a020163c02a25d1c40a020178c02a9c9aac52020179c02a9c9aad5202017ac02a9c9aae5203c02820010dcd00010000000000000000001003c03920010dcd00020000000000000000001003c04220010dcd00030000000000000000001003c04b261000a110740000000000000001008203c054261000a110750000000000000001008203c05d261000a110760000000000000001008201c02801c03901c04201c04b01c05401c05d,
  0x010501000016d4070114d1af65d9493fe00bc5bc2ded27b91f870645d5590016d40702204f478b408da99cb2d196cd2d61a8872b5d2f5a578fbd25e73f4ec19bc4f5857900d1cd070114eb8abdcde220029a7dd36547ca1a028c7d23c76a00d1cd07022071056e4ea918dc68b82a74e22d56519ae1a26c7ca756b754893cbbc10a0affee020161036e6963046361736500c2a9da8c020162c084b918408c020163c084d412f88c020164c084d412f98c03c0822001067c13cc0000000000000001014003c0932a042b0013cc0000000000000001014003c09c2a042b0013ee0000000000000000014003c0a52a042b0013ff0000000000000000014001c08201c09301c09c01c0a5,
  0x01fb00000097cc0802208ff5818a6631fe5ed105d1e518de91a91535a52cf8c0e90ba448f0dc78fdf536020476306e30036e69630463617368004116202c020476306e31c02d4116212c020476306e32c02d4116222c020476306e33c02da1e8102c020476326e30c02d4116232c020476326e31c02da1e8112c03c0282a01884000220000000000000000004403c03c2a01884000230000000000000000004403c0482a01884000240000000000000000004403c0542a01884000fa0000000000000000004403c0602a01884000250000000000000000004403c06c2a01884000fb0000000000000000004401c02801c03c01c04801c05401c06001c06c,
  0x01fd000000c4ea080220ac39e42d7cd1a4212ec2539a9a9bac07a8ab840c97823c6205e9264cb1a024ea020476306e30036e696306636173696e6f0041161412020476306e31c02d41161512020476306e32c02d41161612020476306e33c02da1e80a12020476326e30c02d41161712020476326e31c02da1e80b1203c0282a01884000160000000000000000001803c03e2a01884000170000000000000000001803c04a2a01884000180000000000000000001803c0562a01884000f40000000000000000001803c0622a01884000190000000000000000001803c06e2a01884000f50000000000000000001801c02801c03e01c04a01c05601c06201c06e,
  0x0113010000e5710a02204dce567c12f637d51a755b9585c0c3c4036aba446261ac994f7f5e91eed4c36502026e73036e69630363617400545800a2020363617403706368036e657400cc3dd81402036e7331036e696302657300c245fe0102036e7363036e696302646500c2000b6e0205616e7963310769726f6e646e73c041c3fd40040206737769746368c02b823b1f1d03c028200140b000010003000000000000000203c039200105000014602000ad00000000000103c04b2001067c21cc2000000000000064004103c05c20010678000e0110000000000000005303c06d2a0105b000040000000000000000000403c08220010620000000ff000000000000002f01c02801c03901c04b01c05c01c06d01c082,
  0x01ff000000476008022010b5ed103af8acb750d87840fa7ee1e64f0acc4abb62db629d72cc0e44b4d2eb020476306e30036e6963086361746572696e670041162018020476306e31c02d41162118020476306e32c02d41162218020476306e33c02da1e81018020476326e30c02d41162318020476326e31c02da1e8111803c0282a01884000220000000000000000002403c0402a01884000230000000000000000002403c04c2a01884000240000000000000000002403c0582a01884000fa0000000000000000002403c0642a01884000250000000000000000002403c0702a01884000fb0000000000000000002401c02801c04001c04c01c05801c06401c070,
  0x01ed000000503b080220433482ce6522917b6f0c77c23765cdd4bdac8c05ff5012ffea892cc9dcdb07f8020161036e696308636174686f6c69630025d1c009020162c02a25d1c209020163c02a25d1c409020178c02a9c9aac52020179c02a9c9aad5202017ac02a9c9aae5203c02820010dcd00010000000000000000000903c03d20010dcd00020000000000000000000903c04620010dcd00030000000000000000000903c04f261000a110740000000000000001008203c058261000a110750000000000000001008203c061261000a110760000000000000001008201c02801c03d01c04601c04f01c05801c061,
  0x01aa000000acff0802208ca6adaea243428a99943519846fd6f6bd355ec4990533d0569ee0e6075eb863020161036e6963036362610025d1c009020162c02a25d1c209020163c02a25d1c409020164c02a25d1c60903c02820010dcd00010000000000000000000903c03820010dcd00020000000000000000000903c04120010dcd00030000000000000000000903c04a20010dcd00040000000000000000000901c02801c03801c04101c04a,
  0x01f2000000d0ab080220030de643aaaf4c8f1d7d61a6d3e89eb48ed654916c60c670b72a083f43c48312020161036e69630363626e0025d1c009020162c02a25d1c209020163c02a25d1c40902036e733103646e73c02a9c9a902302036e7332c04e9c9a912302036e7333c04e9c9a9f2303c02820010dcd00010000000000000000000903c03820010dcd00020000000000000000000903c04120010dcd00030000000000000000000903c04a261000a110710000000000000000002303c059261000a110720000000000000000002303c064261000a110730000000000000000002301c02801c03801c04101c04a01c05901c064,
  0x01f3000000b491080220f737a4fd2c347f5f1d4e4df8f4977ba169f28829557fbc8c477051c041268fcc020161036e696304636272650025d1c009020162c02a25d1c209020163c02a25d1c40902036e733103646e73c02a9c9a902402036e7332c04f9c9a912402036e7333c04f9c9a9f2403c02820010dcd00010000000000000000000903c03920010dcd00020000000000000000000903c04220010dcd00030000000000000000000903c04b261000a110710000000000000000002403c05a261000a110720000000000000000002403c065261000a110730000000000000000002401c02801c03901c04201c04b01c05a01c065,
  0x01ae00000076c9080220ea9d4289fab50bab2a4f682a1f450a0d5b7802aac66b478703be109fbd48995902026130036e696303636273004116440902026132c02b4116470902026230c02b4116450902026330c02b4116460903c0282a01884000420000000000000000000903c0392a01884000450000000000000000000903c0432a01884000430000000000000000000903c04d2a01884000440000000000000000000901c02801c03901c04301c04d,
  0x01b40000000207080220e1ec6495abd34562e6f433dee201e6c6a52cb10af69c04d675da692d2d5668970203616331056e73746c6403636f6d00c02aad1e0203616332c02cc02aae1e0203616333c02cc02aaf1e0203616334c02cc02ab01e03c0282001050001200000000000000000003003c03c2001050001210000000000000000003003c0472001050001220000000000000000003003c0522001050001230000000000000000003001c02801c03c01c04701c052,
  0x01500000020a6e732d726f6f742d32310c736370742d6e6574776f726b036e65740066443e0f020a6e732d726f6f742d3232c00d66443c0f020a6e732d726f6f742d3233c00da161578201c00201c02401c036,
  0x01fd000000af2a080220878cabeba9fd175f4d525664473452cff09b626d60754b0d49b8f81aef73c9c3020476306e30036e69630663656e7465720041161c04020476306e31c02d41161d04020476306e32c02d41161e04020476306e33c02da1e80e04020476326e30c02d41161f04020476326e31c02da1e80f0403c0282a018840001e0000000000000000000403c03e2a018840001f0000000000000000000403c04a2a01884000200000000000000000000403c0562a01884000f80000000000000000000403c0622a01884000210000000000000000000403c06e2a01884000f90000000000000000000401c02801c03e01c04a01c05601c06201c06e,
  0x014401000051c1080114bf13ed10ce2850f7c686261f06da97a0e5eb78a60051c1080220dce04f950578106c1c5f8386db709467091c961227606f0a761c7a0e10e2ddc700bb63080114c1d4b59f029dbfcc32c1b3524ee5f5b87735ea6000bb63080220ca81c48a6831fd48d45caf9a0deb74d0e8b8f217cdd05cfd7090c1f926219aea00f8c9080114db7a8f6aadcee147d241a9778857e94707234d4e00f8c9080220f2ab788c2802c3f219d53f37e7e1687ecf2e453e04bc5abcc0b444fc0e35b1ee020161036e69630363656f00c2a9da4e020162c0c4b918404e020163c0c4d412f84e020164c0c4d412f94e03c0c22001067c13cc0000000000000001007803c0d22a042b0013cc0000000000000001007803c0db2a042b0013ee0000000000000000007803c0e42a042b0013ff0000000000000000007801c0c201c0d201c0db01c0e4,
  0x01af0000004f930802205a48eab25c4cf4978949d677c182876c48a6c5b7e2282926a954e8e9c8bec39302026130036e6963046365726e004116e00102026132c02b4116e30102026230c02b4116e10102026330c02b4116e20103c0282a01884000da0000000000000000000103c03a2a01884000dd0000000000000000000103c0442a01884000db0000000000000000000103c04e2a01884000dc0000000000000000000101c02801c03a01c04401c04e,
  0x01820000020161026e7302636600b915a811020162c004b915a911020163c004b915aa11020164c004b915ab1103c0022a041b0000040000000000000000000103c0102a041b0000050000000000000000000103c0192a041b0000060000000000000000000103c0222a041b0000070000000000000000000101c00201c01001c01901c022,
  0x01b4000000d101080220afc328685d96ea41036f4563042db2d7485c8ad9c790bd22111abd414bcafd170203616331056e73746c6403636f6d00c02aad1e0203616332c02cc02aae1e0203616333c02cc02aaf1e0203616334c02cc02ab01e03c0282001050001200000000000000000003003c03c2001050001210000000000000000003003c0472001050001220000000000000000003003c0522001050001230000000000000000003001c02801c03c01c04701c052,
  0x01d0000000291d08022042fd41d6533ac785ef64cf9bd36b16463c5a161da2af25ec08c114b40e82f2d8006ac508022063f199e72594324007d15c0b77b25f4c643e07f0064eaadf08341287856571aa020161036e69630363666400c2a9da7a020162c050b918407a020163c050d412f87a020164c050d412f97a03c04e2001067c13cc0000000000000001012203c05e2a042b0013cc0000000000000001012203c0672a042b0013ee0000000000000000012203c0702a042b0013ff0000000000000000012201c04e01c05e01c06701c070,
  0x015b0000020573756e69630573756e657402736500c0247d020206646e732d667209646e73616672696361036e657400975023a10206646e732d7a61c01e29b91eaa03c002200106b000070000000000000000000201c00201c01701c032,
  0x01c8000000000a0d02200e175543a74d9083ea977bab2bee98a771995f80982fb796b2b0b9cc6413d1a6020161036e696302636800823b1f29020162c02a823b1f2b020164c02ac2001927020165c02ac2001101020166c02ac2926a0a03c02820010620000000ff000000000000005603c03720010620000000ff000000000000005803c0402001067800200000000000000000003903c0492001067800030000000000000000000103c0522001067c10100002000000000000005301c02801c03701c04001c04901c052,
  0x01b40000000c3f0802205e960dd214fb4cafd6929b8a5577b1571258065d148731ef8c1959510aefd59d0203616331056e73746c6403636f6d00c02aad1e0203616332c02cc02aae1e0203616333c02cc02aaf1e0203616334c02cc02ab01e03c0282001050001200000000000000000003003c03c2001050001210000000000000000003003c0472001050001220000000000000000003003c0522001050001230000000000000000003001c02801c03c01c04701c052,
  0x01fa00000090bb080220ad6600649ad83f822ceea5731ea43cb0c560636908219fe59bc5b0d0e575784002076e732d746c643116636861726c6573746f6e726f6164726567697374727903636f6d00d8ef206902076e732d746c6432c030d8ef226902076e732d746c6433c030d8ef246902076e732d746c6434c030d8ef266902076e732d746c6435c030d8ef3c6903c0282001486048020032000000000000006903c0512001486048020034000000000000006903c0602001486048020036000000000000006903c06f2001486048020038000000000000006903c07e2001486048050000000000000000006901c02801c05101c06001c06f01c07e,
  0x01fe000000cd09080220fa42c0a07830a438c791e59d07b39121b72564a6b0af5eb4f2235e5d16d656f7020476306e30036e69630763686172697479004116143d020476306e31c02d4116153d020476306e32c02d4116163d020476306e33c02da1e80a3d020476326e30c02d4116173d020476326e31c02da1e80b3d03c0282a01884000160000000000000000006103c03f2a01884000170000000000000000006103c04b2a01884000180000000000000000006103c0572a01884000f40000000000000000006103c0632a01884000190000000000000000006103c06f2a01884000f50000000000000000006101c02801c03f01c04b01c05701c06301c06f,
  0x01fa0000008c1a080220618f99e685339cf7c8afac24ec3c9a7eaa56b41f622d34f23af944b83be839af02036e733103646e73036e6963056368617365009c9a902702036e7332c02c9c9a912702036e7333c02c9c9a9f2702036e7334c02c9c9a9c2702036e7335c02c9c9a9d2702036e7336c02c9c9a9e2703c028261000a110710000000000000000002703c040261000a110720000000000000000002703c04b261000a110730000000000000000002703c056261000a110740000000000000000002703c061261000a110750000000000000000002703c06c261000a110760000000000000000002701c02801c04001c04b01c05601c06101c06c,
  0x01fb000000afcc080220cfbaed6bb4f9a66e0ecba421e368dd33b881319a74d3375d3a0f8a88fb9bda59020476306e30036e69630463686174004116202a020476306e31c02d4116212a020476306e32c02d4116222a020476306e33c02da1e8102a020476326e30c02d4116232a020476326e31c02da1e8112a03c0282a01884000220000000000000000004203c03c2a01884000230000000000000000004203c0482a01884000240000000000000000004203c0542a01884000fa0000000000000000004203c0602a01884000250000000000000000004203c06c2a01884000fb0000000000000000004201c02801c03c01c04801c05401c06001c06c,
  0x01fc000000becc0802206956c9cfad73cd2bc1f638fe272fbab440593accee4cc6f9bcc60c3c172218ab020476306e30036e6963056368656170004116141a020476306e31c02d4116151a020476306e32c02d4116161a020476306e33c02da1e80a1a020476326e30c02d4116171a020476326e31c02da1e80b1a03c0282a01884000160000000000000000002603c03d2a01884000170000000000000000002603c0492a01884000180000000000000000002603c0552a01884000f40000000000000000002603c0612a01884000190000000000000000002603c06d2a01884000f50000000000000000002601c02801c03d01c04901c05501c06101c06d,
  0x01f6000000e5d208022071dc6c01f954da83b6cdc9e95beabcf8a72fcf478b56f7b4e1214e965bcbfe7c020161036e6963076368696e7461690025d1c009020162c02a25d1c209020163c02a25d1c40902036e733103646e73c02a9c9a902802036e7332c0529c9a912802036e7333c0529c9a9f2803c02820010dcd00010000000000000000000903c03c20010dcd00020000000000000000000903c04520010dcd00030000000000000000000903c04e261000a110710000000000000000002803c05d261000a110720000000000000000002803c068261000a110730000000000000000002801c02801c03c01c04501c04e01c05d01c068,
  0x014a0100000b0b05011445a7ab7ffc9aed55e130deebc6a12a007052c326000b0b050220b359c6393c81c5c19e651290ce278f6d9e6b73b625e2809ea4fa7cee67df4a3e005d85050114bc0c1ccffabd83a031323c84e60b6b755356a8be005d8505022031b3839a387cf1c59f5a9fd953e54c7d5852606c0b20e86281148b6d4aaac04200c7f0050114b14c7aa2999b35f27382961870cb8e480a1f5f0b00c7f00502201a80057885de5c3e07689cd77e954733a4b21658c65bee06f69b8f8e5f47170d020161036e6963096368726973746d617300c2a9da99020162c0c4b9184099020163c0c4d412f899020164c0c4d412f99903c0c22001067c13cc0000000000000001015303c0d82a042b0013cc0000000000000001015303c0e12a042b0013ee0000000000000000015303c0ea2a042b0013ff0000000000000000015301c0c201c0d801c0e101c0ea,
  0x01fa000000de4f080220c036ad5481a57eacdecf5780de4aec4a1c433732d50da29a66a1643656d065ba02076e732d746c643116636861726c6573746f6e726f6164726567697374727903636f6d00d8ef206902076e732d746c6432c030d8ef226902076e732d746c6433c030d8ef246902076e732d746c6434c030d8ef266902076e732d746c6435c030d8ef3c6903c0282001486048020032000000000000006903c0512001486048020034000000000000006903c0602001486048020036000000000000006903c06f2001486048020038000000000000006903c07e2001486048050000000000000000006901c02801c05101c06001c06f01c07e,
  0x01fd0000003be30802200f54af90a54221febfc21487adda2c595ef2ef9b5abc706d1938b1f95f20d9c9020476306e30036e6963066368757263680041161827020476306e31c02d41161927020476306e32c02d41161a27020476306e33c02da1e80c27020476326e30c02d41161b27020476326e31c02da1e80d2703c0282a018840001a0000000000000000003903c03e2a018840001b0000000000000000003903c04a2a018840001c0000000000000000003903c0562a01884000f60000000000000000003903c0622a018840001d0000000000000000003903c06e2a01884000f70000000000000000003901c02801c03e01c04a01c05601c06201c06e,
  0x01e6000000eb400802200fb751f1b2230b9ef643ddce8c30acd1e7cc20fa7d52346ca074a32b8f01c6860202636907686f7374696e67036e696302667200c086003102026e73036e696302636900c43100540203616e79c043cc3dd87802056e732d636907616672696e6963036e657400c4d8a81e020670686c6f656d07756f7265676f6e036564750080df202303c0282001066030060001000000000001000103c050200105000014612000ad00000000000103c05b200143f801200000000000000000003003c073200104680d0100200000000080df202301c02801c04001c05001c05b01c073,
  0x01b3000000433908022041adac2bf52a4a5ea210ce9db7ab6114a28cf916f1e06b1f4c3eee90077d614702026130036e6963086369707269616e69004116ec2902026132c02b4116ef2902026230c02b4116ed2902026330c02b4116ee2903c0282a01884000e60000000000000000004103c03e2a01884000e90000000000000000004103c0482a01884000e70000000000000000004103c0522a01884000e80000000000000000004101c02801c03e01c04801c052,
  0x0141010000937108022089e27d8efd40f6e9a05d3a8a4ae933a41056e574008d30b20c8ad9a7d07785db0204646e7331036e696306636972636c6500d5f8da400204646e7332c02d673152400204646e7333c02dd5f8de400204646e7334c02d2be632400204646e7361c02d9c9a64030204646e7362c02d9c9a65030204646e7363c02d9c9a66030204646e7364c02d9c9a670303c0282a01061804020000000000000000006403c03e2401fd8004020000000000000000006403c04a2a01061804060000000000000000006403c0562401fd8004060000000000000000006403c06220010502ad090000000000000000000303c06e200105022eda0000000000000000000303c07a261000a110090000000000000000000303c086261000a110100000000000000000000301c02801c03e01c04a01c05601c06201c06e01c07a01c086,
  0x01f4000000f64908022042d0c12c3b954c6297a8810386e8d5d80f38a383f7c911630a5c1f3c81af890b020161036e696305636973636f0025d1c009020162c02a25d1c209020163c02a25d1c40902036e733103646e73c02a9c9a902c02036e7332c0509c9a912c02036e7333c0509c9a9f2c03c02820010dcd00010000000000000000000903c03a20010dcd00020000000000000000000903c04320010dcd00030000000000000000000903c04c261000a110710000000000000000002c03c05b261000a110720000000000000000002c03c066261000a110730000000000000000002c01c02801c03a01c04301c04c01c05b01c066,
  0x01fc000000f29b080220cc98bfd74d46f2274b9a966f9d522161c6d2ea0d8621df3a6ac4f1d3b229dc7c02036e733103646e73036e6963076369746164656c009c9a902d02036e7332c02c9c9a912d02036e7333c02c9c9a9f2d02036e7334c02c9c9a9c2d02036e7335c02c9c9a9d2d02036e7336c02c9c9a9e2d03c028261000a110710000000000000000002d03c042261000a110720000000000000000002d03c04d261000a110730000000000000000002d03c058261000a110740000000000000000002d03c063261000a110750000000000000000002d03c06e261000a110760000000000000000002d01c02801c04201c04d01c05801c06301c06e,
  0x01f3000000c0eb0802209e8f9d0b17e64be572031238573f83d2a6fc1ee6c925ddb5062b1698a91d7a2a020161036e696304636974690025d1c009020162c02a25d1c209020163c02a25d1c40902036e733103646e73c02a9c9a90d502036e7332c04f9c9a91d502036e7333c04f9c9a9fd503c02820010dcd00010000000000000000000903c03920010dcd00020000000000000000000903c04220010dcd00030000000000000000000903c04b261000a11071000000000000000000d503c05a261000a11072000000000000000000d503c065261000a11073000000000000000000d501c02801c03901c04201c04b01c05a01c065,
  0x01ac000000302b080220cdbfc9f67e7f97e1759bf1bcaa26c853bc5dde881551e1fa4a633e8bd6b8c9bd020161097a646e73636c6f756403636f6d00cb631801020162c02acb631901020163c02acb631a01020164c02acb631b01020166c02a724310cc020167c02a2a3e0210030169c02a24018d0000010000000000000000000103016ac02a24018d0000020000000000000000000101c02801c03e01c04701c05001c05901c06201c06b01c080,
  0x01fb000000802008022010d3a1350cb71ffd64e8ab13da40cc6a697267ae989b92a8df1460c5afcdf87a020476306e30036e696304636974790041161804020476306e31c02d41161904020476306e32c02d41161a04020476306e33c02da1e80c04020476326e30c02d41161b04020476326e31c02da1e80d0403c0282a018840001a0000000000000000000403c03c2a018840001b0000000000000000000403c0482a018840001c0000000000000000000403c0542a01884000f60000000000000000000403c0602a018840001d0000000000000000000403c06c2a01884000f70000000000000000000401c02801c03c01c04801c05401c06001c06c,
  0x01b4000000a57e0802204098358620161d20e0da9a41456a1cb95e24474b7b0e5947bb070f060a7fe88e0203616331056e73746c6403636f6d00c02aad1e0203616332c02cc02aae1e0203616333c02cc02aaf1e0203616334c02cc02ab01e03c0282001050001200000000000000000003003c03c2001050001210000000000000000003003c0472001050001220000000000000000003003c0522001050001230000000000000000003001c02801c03c01c04701c052,
  0x0162000002056369726361036d637303767577026163026e7a0082c3050c02057061726175066f7973746572036e657402636b00ca4120800208706f697061726175c022ca41207f0209646f776e7374616765c00882c3060a01c00201c01c01c03601c046,
  0x013801000052cf0802207d756dffab6d3cd9c786ff5c659954c22944faef9433eee26f1d84eb5370b394020161036e696302636c00be7c1b0a020162c02ac8070407020163c02ac81070100203636c3107646e736e6f6465036e657400c2926a220205636c2d6e7307616e796361737403706368c055cc3dd81e0207636c312d746c6406642d7a6f6e6502636100b99fc5380207636c322d746c64c080b99fc63803c0282001139801210000019001240027001003c0372001139802740000020000070004000703c0402001139802750000020000160112001603c0492001067c10100008000000000000005303c05f200105000014603000ad00000000000103c0782620010a80aa0000000000000000005603c0902620010a80ab0000000000000000005601c02801c03701c04001c04901c05f01c07801c090,
  0x01fd000000084708022098654e9430c03144f60667837f175cd420236c9a1edd20131e653d2368a50dcd020476306e30036e696306636c61696d73004116143c020476306e31c02d4116153c020476306e32c02d4116163c020476306e33c02da1e80a3c020476326e30c02d4116173c020476326e31c02da1e80b3c03c0282a01884000160000000000000000006003c03e2a01884000170000000000000000006003c04a2a01884000180000000000000000006003c0562a01884000f40000000000000000006003c0622a01884000190000000000000000006003c06e2a01884000f50000000000000000006001c02801c03e01c04a01c05601c06201c06e,
  0x01ff000000b7ca080220182550e0c9232702e0700934c97c42e20b831c0987ee0e1b98bd726c1cb0f28d020476306e30036e696308636c65616e696e67004116141b020476306e31c02d4116151b020476306e32c02d4116161b020476306e33c02da1e80a1b020476326e30c02d4116171b020476326e31c02da1e80b1b03c0282a01884000160000000000000000002703c0402a01884000170000000000000000002703c04c2a01884000180000000000000000002703c0582a01884000f40000000000000000002703c0642a01884000190000000000000000002703c0702a01884000f50000000000000000002701c02801c04001c04c01c05801c06401c070,
  0x01b7000000ffed0d0220d09a2c14c4382634edccf9634fb32e91511e1e642f3c38468ba2407f1d1bad2402036e73310b756e697265676973747279036e6574004060010102036e73320b756e69726567697374727904696e666f004060020102036e7333c02cb99fc50302036e7334c046b99fc60303c0282620005740000001000000000000000103c05d2620010a80aa0000000000000000000303c0682620010a80ab0000000000000000000301c02801c04201c05d01c068,
  0x01fd000000af72080220af3d84251dfb43f15442b1b300ac65252bd0c3ff91bf6711412cb3d6efe49c43020476306e30036e696306636c696e6963004116202f020476306e31c02d4116212f020476306e32c02d4116222f020476306e33c02da1e8102f020476326e30c02d4116232f020476326e31c02da1e8112f03c0282a01884000220000000000000000004703c03e2a01884000230000000000000000004703c04a2a01884000240000000000000000004703c0562a01884000fa0000000000000000004703c0622a01884000250000000000000000004703c06e2a01884000fb0000000000000000004701c02801c03e01c04a01c05601c06201c06e,
  0x01b3000000c8560802202456b103e69d9f788b97912b8dfba0fbfdf574abfa166ddd1c773dcf252b3bde02026130036e696308636c696e69717565004116342902026132c02b4116372902026230c02b4116352902026330c02b4116362903c0282a01884000320000000000000000004103c03e2a01884000350000000000000000004103c0482a01884000330000000000000000004103c0522a01884000340000000000000000004101c02801c03e01c04801c052,
  0x01ff0000006f0d080220568008019c12e27101ddbe2dec57563701d527fffd4a61ae82d7c54febad2f2d020476306e30036e696308636c6f7468696e67004116180d020476306e31c02d4116190d020476306e32c02d41161a0d020476306e33c02da1e80c0d020476326e30c02d41161b0d020476326e31c02da1e80d0d03c0282a018840001a0000000000000000001303c0402a018840001b0000000000000000001303c04c2a018840001c0000000000000000001303c0582a01884000f60000000000000000001303c0642a018840001d0000000000000000001303c0702a01884000f70000000000000000001301c02801c04001c04c01c05801c06401c070,
  0x01ea0000005b4e0802200503a8fb36bc97cf3fba3b0186be04364e5743b345a89288fd5dfb9672d73619020161036e696305636c6f75640025d1c00a020162c02a25d1c20a020163c02a25d1c40a020178c02a9c9aac52020179c02a9c9aad5202017ac02a9c9aae5203c02820010dcd00010000000000000000001003c03a20010dcd00020000000000000000001003c04320010dcd00030000000000000000001003c04c261000a110740000000000000001008203c055261000a110750000000000000001008203c05e261000a110760000000000000001008201c02801c03a01c04301c04c01c05501c05e,
  0x01f30000004fa80802201f1ebacd947952ce4df8a80045ec37d088a49b72618feb92b91229de4d31b7b4020161036e696304636c75620025d1c00a020162c02a25d1c20a020163c02a25d1c40a02036e733103646e73c02a9c9a90d702036e7332c04f9c9a91d702036e7333c04f9c9a9fd703c02820010dcd00010000000000000000001003c03920010dcd00020000000000000000001003c04220010dcd00030000000000000000001003c04b261000a11071000000000000000000d703c05a261000a11072000000000000000000d703c065261000a11073000000000000000000d701c02801c03901c04201c04b01c05a01c065,
  0x01b40000000b0708022049afa8257aef277eadce81a3b3712be90aec8a22363b302884acf373eadadf0c0203616331056e73746c6403636f6d00c02aad1e0203616332c02cc02aae1e0203616333c02cc02aaf1e0203616334c02cc02ab01e03c0282001050001200000000000000000003003c03c2001050001210000000000000000003003c0472001050001220000000000000000003003c0522001050001230000000000000000003001c02801c03c01c04701c052,
  0x0177000002026e7303697475026368009c6ac07902036b696d0663616d6e657402636d00c318c02302036c6f6dc016c318c0220206617574683032026e73027575036e657400c6060152020673616e616761c016c318c01103c0022a00758000602141000000000000001001c00201c01201c02601c03101c048,
  0x01be000000e17c0802205d0423633eb24a499be78aa22d1c0c9ba36218ff49fd95a4cdf1a4ad97c6704402016103646e7302636e00cb771901020162c02acb771a01020163c02acb771b01020164c02acb771c01020165c02acb771d01020166c02ac3db085a020167c02a42c6b74102026e73066365726e6574036e657400ca70002c03c02820010dc700000000000000000000000103c04920010dc710000000000000000000000101c02801c03701c04001c04901c05201c05b01c06401c06d,
  0x01f5000000f130080220b9adca87453c1f69a9a524681f4179a88374c546a45892acc10e2653519accbd02036e7331056363746c6402636f0025d1c00e02036e7332c02c25d1c20e02036e7333c02c25d1c40e02036e7334c02c9c9a671902036e7335c02c9c9a681902036e7336c02c9c9a691903c02820010dcd00010000000000000000001403c03b20010dcd00020000000000000000001403c04620010dcd00030000000000000000001403c051261000a110100000000000000000002103c05c261000a110110000000000000000002103c067261000a110120000000000000000002101c02801c03b01c04601c05101c05c01c067,
  0x01fc0000001bb80802202c8f67d678443e464938744000d71fe49762ef2f18eb51992d0aa5c9d7b88c6d020476306e30036e696305636f6163680041162029020476306e31c02d41162129020476306e32c02d41162229020476306e33c02da1e81029020476326e30c02d41162329020476326e31c02da1e8112903c0282a01884000220000000000000000004103c03d2a01884000230000000000000000004103c0492a01884000240000000000000000004103c0552a01884000fa0000000000000000004103c0612a01884000250000000000000000004103c06d2a01884000fb0000000000000000004101c02801c03d01c04901c05501c06101c06d,
  0x01fc000000ea760802208202ce29fc05c3d18a4e2b64481f9e14d900d210f86b9b6226ab3ef0aca364d7020476306e30036e696305636f646573004116202b020476306e31c02d4116212b020476306e32c02d4116222b020476306e33c02da1e8102b020476326e30c02d4116232b020476326e31c02da1e8112b03c0282a01884000220000000000000000004303c03d2a01884000230000000000000000004303c0492a01884000240000000000000000004303c0552a01884000fa0000000000000000004303c0612a01884000250000000000000000004303c06d2a01884000fb0000000000000000004301c02801c03d01c04901c05501c06101c06d,
  0x01fd0000009304080220a131f5c4f1c6415c615b2b0b297cc9f97ceecb22cfa36d74270642fa8f0eedab020476306e30036e696306636f666665650041161c29020476306e31c02d41161d29020476306e32c02d41161e29020476306e33c02da1e80e29020476326e30c02d41161f29020476326e31c02da1e80f2903c0282a018840001e0000000000000000004103c03e2a018840001f0000000000000000004103c04a2a01884000200000000000000000004103c0562a01884000f80000000000000000004103c0622a01884000210000000000000000004103c06e2a01884000f90000000000000000004101c02801c03e01c04a01c05601c06201c06e,
  0x01c8000000b62a080114e8d1436abc9b53d4219d05356cc1687732014b6000b62a0802207bebb696e117d17efa506b8dd2209d2c49e97e6635596ff3177be76be0463c3c020161036e696307636f6c6c65676500c2a9da2c020162c044b918402c020163c044d412f82c020164c044d412f92c03c0422001067c13cc0000000000000001004403c0562a042b0013cc0000000000000001004403c05f2a042b0013ee0000000000000000004403c0682a042b0013ff0000000000000000004401c04201c05601c05f01c068,
  0x01a200000067a50a0220b3a50f0fe5e706e83b98eafe1ae7ac0dbb95219c8c6eafb94ce1de36b2a7f51f0203646e7308727963652d72737003636f6d00c2000b7202036e733103646e7308627573696e657373009d5acd8a02036e7331c02cc138cc9903c02820010678000e0114000000000000005303c03f2a0104f802524295000000009d5acd8a03c0562a0c8f4000000701000000000000015301c02801c03f01c056,
  0x01ca01000078bd080220e2d3c916f6deeac73294e8268fb5885044a833fc5459588f4a9184cfc41a57660201610c67746c642d73657276657273036e657400c005061e020162c02ac0210e1e020163c02ac01a5c1e020164c02ac01f501e020165c02ac00c5e1e020166c02ac023331e020167c02ac02a5d1e020168c02ac036701e020169c02ac02bac1e02016ac02ac0304f1e02016bc02ac034b21e02016cc02ac029a21e02016dc02ac037531e03c02820010503a83e0000000000000002003003c04120010503231d0000000000000002003003c04a2001050383eb0000000000000000003003c05320010500856e0000000000000000003003c05c200105021ca10000000000000000003003c06520010503d4140000000000000000003003c06e20010503eea30000000000000000003003c0772001050208cc0000000000000000003003c0802001050339c10000000000000000003003c0892001050270940000000000000000003003c092200105030d2d0000000000000000003003c09b20010500d9370000000000000000003003c0a420010501b1f90000000000000000003001c02801c04101c04a01c05301c05c01c06501c06e01c07701c08001c08901c09201c09b01c0a4,
  0x0142010000553108022010e13e49f33ed1e42ca5d829093548118280d27664eb9db6b52956189b5dbc670204646e7331036e696307636f6d6361737400d5f8db060204646e7332c02d673153060204646e7333c02dd5f8df060204646e7334c02d2be633060204646e7361c02d9c9a64030204646e7362c02d9c9a65030204646e7363c02d9c9a66030204646e7364c02d9c9a670303c0282a01061804030000000000000000000603c03f2401fd8004030000000000000000000603c04b2a01061804070000000000000000000603c0572401fd8004070000000000000000000603c06320010502ad090000000000000000000303c06f200105022eda0000000000000000000303c07b261000a110090000000000000000000303c087261000a110100000000000000000000301c02801c03f01c04b01c05701c06301c06f01c07b01c087,
  0x01af0000006451080220ccb3f1bcfd33d277ece719b8aad64a84b6722c4a46235605f3df06d435f59b6d020161036e696308636f6d6d62616e6b0025d1c009020162c02a25d1c209020163c02a25d1c409020164c02a25d1c60903c02820010dcd00010000000000000000000903c03d20010dcd00020000000000000000000903c04620010dcd00030000000000000000000903c04f20010dcd00040000000000000000000901c02801c03d01c04601c04f,
  0x0100010000a075080220f9eff79788bf6867b89d159ce55acb532f65a3a8cd50a49a1a298ebe08384d7d020476306e30036e696309636f6d6d756e697479004116180a020476306e31c02d4116190a020476306e32c02d41161a0a020476306e33c02da1e80c0a020476326e30c02d41161b0a020476326e31c02da1e80d0a03c0282a018840001a0000000000000000001003c0412a018840001b0000000000000000001003c04d2a018840001c0000000000000000001003c0592a01884000f60000000000000000001003c0652a018840001d0000000000000000001003c0712a01884000f70000000000000000001001c02801c04101c04d01c05901c06501c071,
  0x01fe0000002c02080220ca9ea07e5ef40b031c8b7ce22d30076665054333b8d56b2979c481df8cb5f983020476306e30036e696307636f6d70616e790041161824020476306e31c02d41161924020476306e32c02d41161a24020476306e33c02da1e80c24020476326e30c02d41161b24020476326e31c02da1e80d2403c0282a018840001a0000000000000000003603c03f2a018840001b0000000000000000003603c04b2a018840001c0000000000000000003603c0572a01884000f60000000000000000003603c0632a018840001d0000000000000000003603c06f2a01884000f70000000000000000003601c02801c03f01c04b01c05701c06301c06f,
  0x01ec000000315a08022040c8dbba65ac7385a2dd35e299ee6010d850197dd7a438dccac7d13c2d32d953020161036e696307636f6d706172650025d1c009020162c02a25d1c209020163c02a25d1c409020178c02a9c9aac52020179c02a9c9aad5202017ac02a9c9aae5203c02820010dcd00010000000000000000000903c03c20010dcd00020000000000000000000903c04520010dcd00030000000000000000000903c04e261000a110740000000000000001008203c057261000a110750000000000000001008203c060261000a110760000000000000001008201c02801c03c01c04501c04e01c05701c060,
  0x01ff00000073bd08022049c52c30c178f8cf305cfe47ed6b6faec79e6200ab71b74dd1bfe4b2a9253438020476306e30036e696308636f6d70757465720041161c13020476306e31c02d41161d13020476306e32c02d41161e13020476306e33c02da1e80e13020476326e30c02d41161f13020476326e31c02da1e80f1303c0282a018840001e0000000000000000001903c0402a018840001f0000000000000000001903c04c2a01884000200000000000000000001903c0582a01884000f80000000000000000001903c0642a01884000210000000000000000001903c0702a01884000f90000000000000000001901c02801c04001c04c01c05801c06401c070,
  0x01b40000008634080220690fa5ece1031be50ddd9ac71d413546cb3d1f3d9914563c0b8c32e53f491b320203616331056e73746c6403636f6d00c02aad1e0203616332c02cc02aae1e0203616333c02cc02aaf1e0203616334c02cc02ab01e03c0282001050001200000000000000000003003c03c2001050001210000000000000000003003c0472001050001220000000000000000003003c0522001050001230000000000000000003001c02801c03c01c04701c052,
  0x01fd0000004d3e08022071b1fdad0a762cea8a5b132165bc53355873c05623b8e093f03b30e0117bc757020476306e30036e696306636f6e646f73004116143f020476306e31c02d4116153f020476306e32c02d4116163f020476306e33c02da1e80a3f020476326e30c02d4116173f020476326e31c02da1e80b3f03c0282a01884000160000000000000000006303c03e2a01884000170000000000000000006303c04a2a01884000180000000000000000006303c0562a01884000f40000000000000000006303c0622a01884000190000000000000000006303c06e2a01884000f50000000000000000006301c02801c03e01c04a01c05601c06201c06e,
  0x0103010000fd18080220810c9892ae0cef123c2ab4b09a8bf2547beba98819e21b5698032e9026e5faf7020476306e30036e69630c636f6e737472756374696f6e0041161432020476306e31c02d41161532020476306e32c02d41161632020476306e33c02da1e80a32020476326e30c02d41161732020476326e31c02da1e80b3203c0282a01884000160000000000000000005003c0442a01884000170000000000000000005003c0502a01884000180000000000000000005003c05c2a01884000f40000000000000000005003c0682a01884000190000000000000000005003c0742a01884000f50000000000000000005001c02801c04401c05001c05c01c06801c074,
  0x0101010000f47e080220d5e3b9150e958295e81d8760002ff9e5cffd91f95903581e648465a2abcbe2f0020476306e30036e69630a636f6e73756c74696e670041161841020476306e31c02d41161941020476306e32c02d41161a41020476306e33c02da1e80c41020476326e30c02d41161b41020476326e31c02da1e80d4103c0282a018840001a0000000000000000006503c0422a018840001b0000000000000000006503c04e2a018840001c0000000000000000006503c05a2a01884000f60000000000000000006503c0662a018840001d0000000000000000006503c0722a01884000f70000000000000000006501c02801c04201c04e01c05a01c06601c072,
  0x01fe000000cf46080220222b955db8b21ee60995cca8de45627d6e0156627453fec444ef6c57339e8375020476306e30036e696307636f6e746163740041161822020476306e31c02d41161922020476306e32c02d41161a22020476306e33c02da1e80c22020476326e30c02d41161b22020476326e31c02da1e80d2203c0282a018840001a0000000000000000003403c03f2a018840001b0000000000000000003403c04b2a018840001c0000000000000000003403c0572a01884000f60000000000000000003403c0632a018840001d0000000000000000003403c06f2a01884000f70000000000000000003401c02801c03f01c04b01c05701c06301c06f,
  0x010201000051ee080220cce032dcfd77c2f610e6ec3616944f62054504247ef87827d63a4caf9c3047d5020476306e30036e69630b636f6e74726163746f72730041161838020476306e31c02d41161938020476306e32c02d41161a38020476306e33c02da1e80c38020476326e30c02d41161b38020476326e31c02da1e80d3803c0282a018840001a0000000000000000005603c0432a018840001b0000000000000000005603c04f2a018840001c0000000000000000005603c05b2a01884000f60000000000000000005603c0672a018840001d0000000000000000005603c0732a01884000f70000000000000000005601c02801c04301c04f01c05b01c06701c073,
  0x01ec0000006da5080220ce234a5239cc651d9613917e4d5d4795ea8a0c7a63db0c3ae69bb5fa6caba352020161036e696307636f6f6b696e670025d1c00a020162c02a25d1c20a020163c02a25d1c40a020178c02a9c9aac52020179c02a9c9aad5202017ac02a9c9aae5203c02820010dcd00010000000000000000001003c03c20010dcd00020000000000000000001003c04520010dcd00030000000000000000001003c04e261000a110740000000000000001008203c057261000a110750000000000000001008203c060261000a110760000000000000001008201c02801c03c01c04501c04e01c05701c060,
  0x01b4000000bca00802204bb52d23c468a1d38e99d7e4e9ddc361ba544bfc46dac27769158b78d5940c1e0203616331056e73746c6403636f6d00c02aad1e0203616332c02cc02aae1e0203616333c02cc02aaf1e0203616334c02cc02ab01e03c0282001050001200000000000000000003003c03c2001050001210000000000000000003003c0472001050001220000000000000000003003c0522001050001230000000000000000003001c02801c03c01c04701c052,
  0x01fb000000f2e008022096734f338d4e0324b2d2d4749966fd092409783ec337bab67574d72bcab7c19e020476306e30036e696304636f6f6c0041161826020476306e31c02d41161926020476306e32c02d41161a26020476306e33c02da1e80c26020476326e30c02d41161b26020476326e31c02da1e80d2603c0282a018840001a0000000000000000003803c03c2a018840001b0000000000000000003803c0482a018840001c0000000000000000003803c0542a01884000f60000000000000000003803c0602a018840001d0000000000000000003803c06c2a01884000f70000000000000000003801c02801c03c01c04801c05401c06001c06c,
  0x01dd00000026e90802207464849b6c08384030d135d156559691db98804ce1dab9891447ca45b594ef3600c52708022054e0ce5ca1d960fced356150b250f66c775601d91825090bad0690cb382e715d02036e73310b756e697265676973747279036e6574004060010102036e73320b756e69726567697374727904696e666f004060020102036e7333c052b99fc50302036e7334c06cb99fc60303c04e2620005740000001000000000000000103c0832620010a80aa0000000000000000000303c08e2620010a80ab0000000000000000000301c04e01c06801c08301c08e,
  0x018e000000417e0d0220fb25f2d69835bf52cd5389473cd4b0c58d581385ee40b1d1a357135a8ce26997020164036e696302667200c200090102016603657874c02ac2926a2e020167c039c200240103c02820010678000c0000000000000000000103c0372001067c10100011000000000000005303c04420010678004c0000000000000000000101c02801c03701c044,
  0x01b70000006f140d022094dd44e372b69204cb1fe63ddd1d7a831642d96d00e9dda589ddaa02e0922cdd02036e73310b756e697265676973747279036e6574004060010102036e73320b756e69726567697374727904696e666f004060020102036e7333c02cb99fc50302036e7334c046b99fc60303c0282620005740000001000000000000000103c05d2620010a80aa0000000000000000000303c0682620010a80ab0000000000000000000301c02801c04201c05d01c068,
  0x01f500000060b208022028ac37a1524040f644439b351bb5929f2ee66b8b6d6ea40d499a0db7455ef0c3020161036e696306636f75706f6e0025d1c00a020162c02a25d1c20a020163c02a25d1c40a02036e733103646e73c02a9c9a90d902036e7332c0519c9a91d902036e7333c0519c9a9fd903c02820010dcd00010000000000000000001003c03b20010dcd00020000000000000000001003c04420010dcd00030000000000000000001003c04d261000a11071000000000000000000d903c05c261000a11072000000000000000000d903c067261000a11073000000000000000000d901c02801c03b01c04401c04d01c05c01c067,
  0x01fe00000088e108022081d5a5bc4de79409836063937978addace94166d41a4d005b328c8dcb9d0f936020476306e30036e696307636f75706f6e73004116181d020476306e31c02d4116191d020476306e32c02d41161a1d020476306e33c02da1e80c1d020476326e30c02d41161b1d020476326e31c02da1e80d1d03c0282a018840001a0000000000000000002903c03f2a018840001b0000000000000000002903c04b2a018840001c0000000000000000002903c0572a01884000f60000000000000000002903c0632a018840001d0000000000000000002903c06f2a01884000f70000000000000000002901c02801c03f01c04b01c05701c06301c06f,
  0x01ec0000008890080220dc3b228b7e6f2eea82fad1adeb93171d4d3ca3892a3e0e94035cd89d258df087020161036e696307636f75727365730025d1c009020162c02a25d1c209020163c02a25d1c409020178c02a9c9aac52020179c02a9c9aad5202017ac02a9c9aae5203c02820010dcd00010000000000000000000903c03c20010dcd00020000000000000000000903c04520010dcd00030000000000000000000903c04e261000a110740000000000000001008203c057261000a110750000000000000001008203c060261000a110760000000000000001008201c02801c03c01c04501c04e01c05701c060,
  0x01e80000006307080220a5062c23ef5598a091792978fd4f5ba6729a9a30bfcf880fc1cc7d0708a3313d020161036e6963036370610025d1c009020162c02a25d1c209020163c02a25d1c409020178c02a9c9aac52020179c02a9c9aad5202017ac02a9c9aae5203c02820010dcd00010000000000000000000903c03820010dcd00020000000000000000000903c04120010dcd00030000000000000000000903c04a261000a110740000000000000001008203c053261000a110750000000000000001008203c05c261000a110760000000000000001008201c02801c03801c04101c04a01c05301c05c,
  0x01f80000000e7c0d0220d6c9af023cc12d1d86f5b3dfad932908153d8e12b71f77330f23fb08ba15d0a2020161066c6163746c64036f726700c800440a020170036e696302637200cc3dd85902026465c03dc2000b6b0203636131c03db99fc5640203636132c03db99fc6640203646e73c03dc86b526403c02828010014a0000000000000000000001003c03b200105000014608900ad00000000000103c04a20010678000e0107000000000000005303c0542620010a80aa0000000000000000010003c05f2620010a80ab0000000000000000010003c06a200113c770040001000000000000d10001c02801c03b01c04a01c05401c05f01c06a,
  0x01fd000000c17e080220dc1db287046fca135c071640a2da5b5a357aaa6ae900bb324035baebbd461a90020476306e30036e6963066372656469740041162036020476306e31c02d41162136020476306e32c02d41162236020476306e33c02da1e81036020476326e30c02d41162336020476326e31c02da1e8113603c0282a01884000220000000000000000005403c03e2a01884000230000000000000000005403c04a2a01884000240000000000000000005403c0562a01884000fa0000000000000000005403c0622a01884000250000000000000000005403c06e2a01884000fb0000000000000000005401c02801c03e01c04a01c05601c06201c06e,
  0x0101010000d204080220e405dd422f4a0b2554a51b063d92e9709a2bf309dc2d5bec2c914065636d3fe4020476306e30036e69630a637265646974636172640041161441020476306e31c02d41161541020476306e32c02d41161641020476306e33c02da1e80a41020476326e30c02d41161741020476326e31c02da1e80b4103c0282a01884000160000000000000000006503c0422a01884000170000000000000000006503c04e2a01884000180000000000000000006503c05a2a01884000f40000000000000000006503c0662a01884000190000000000000000006503c0722a01884000f50000000000000000006501c02801c04201c04e01c05a01c06601c072,
  0x01b70000002c9b0d02202393ddf8501d382cb4a700c85abcc974a95aad110898b8becc4bdba60b5e50f102036e73310b756e697265676973747279036e6574004060010102036e73320b756e69726567697374727904696e666f004060020102036e7335c02ccc3dd90202036e7336c046ce33fe0203c0282620005740000001000000000000000103c05d200105000014700200ad00000000000103c0682620017108040ad2000000000000000201c02801c04201c05d01c068,
  0x01f6000000a333080220300973057d1eeaeaa9a7a558359564f48e7654b88cd3c81d23e48f700701afce020161036e696307637269636b65740025d1c00a020162c02a25d1c20a020163c02a25d1c40a02036e733103646e73c02a9c9a90dc02036e7332c0529c9a91dc02036e7333c0529c9a9fdc03c02820010dcd00010000000000000000001003c03c20010dcd00020000000000000000001003c04520010dcd00030000000000000000001003c04e261000a11071000000000000000000dc03c05d261000a11072000000000000000000dc03c068261000a11073000000000000000000dc01c02801c03c01c04501c04e01c05d01c068,
  0x01b40000006d0e0802208842332bde0ba9771ae17ddadd5018c37a16287e1384967c331c615b23d85d560203616331056e73746c6403636f6d00c02aad1e0203616332c02cc02aae1e0203616333c02cc02aaf1e0203616334c02cc02ab01e03c0282001050001200000000000000000003003c03c2001050001210000000000000000003003c0472001050001220000000000000000003003c0522001050001230000000000000000003001c02801c03c01c04701c052,
  0x01d4000000e5020802205fbcef1eaafadbecaea20e6547caa2b3d5b2e40fb5c23ec978ce79f1bdfe48cb00f886080220d1647f1f8b7a8508b81f1d822c27581b628f7351ee8d99b8dc32a2bd802e0c3702026130036e696303637273004116701902026132c0514116731902026230c0514116711902026330c0514116721903c04e2a018840006e0000000000000000002503c05f2a01884000710000000000000000002503c0692a018840006f0000000000000000002503c0732a01884000700000000000000000002501c04e01c05f01c06901c073,
  0x01b100000081c4080220254d748f9e700bd632010eeffe96cc5a1dfef5b4a85a18a1ab4962ea81f9937f02026130036e696306637275697365004116c01902026132c02b4116c31902026230c02b4116c11902026330c02b4116c21903c0282a01884000ba0000000000000000002503c03c2a01884000bd0000000000000000002503c0462a01884000bb0000000000000000002503c0502a01884000bc0000000000000000002501c02801c03c01c04601c050,
  0x01fe000000831a0802201ddfe341f6a4826600129a02d4586888063e21c358e093d8ab4c4b5933d73e01020476306e30036e69630763727569736573004116181e020476306e31c02d4116191e020476306e32c02d41161a1e020476306e33c02da1e80c1e020476326e30c02d41161b1e020476326e31c02da1e80d1e03c0282a018840001a0000000000000000003003c03f2a018840001b0000000000000000003003c04b2a018840001c0000000000000000003003c0572a01884000f60000000000000000003003c0632a018840001d0000000000000000003003c06f2a01884000f70000000000000000003001c02801c03f01c04b01c05701c06301c06f,
  0x01d2000002026375056363746c640761757468646e730472697065036e657400c100094602026e7303646e7302627200c8a0000502026e730663656e696169036e657402637500a99e808802036e733203676970c018cc3b01de02036e7332c035a99e805802037269700370736703636f6d00931c002703c0022001067c00e00000000000000000007003c022200112ff00000a20000000000000000503c0322001134000010128000000000000013603c0632001041800010000000000000000003901c00201c02201c03201c04901c05801c063,
  0x01ef0000001e8b08022034ad4e3123591f60ca6f54ef8225c5b9ea2cf0325ca3af1c73da9be243c1fbbb020161036e69630a63756973696e656c6c610025d1c009020162c02a25d1c209020163c02a25d1c409020178c02a9c9aac52020179c02a9c9aad5202017ac02a9c9aae5203c02820010dcd00010000000000000000000903c03f20010dcd00020000000000000000000903c04820010dcd00030000000000000000000903c051261000a110740000000000000001008203c05a261000a110750000000000000001008203c063261000a110760000000000000001008201c02801c03f01c04801c05101c05a01c063,
  0x01b3000002016303646e7302707400cc3dd86902026e7303646e730263760029ddc0dc0204616e796307646e736e6f6465036e657400c23ac687020463763031c004b927d01202066e732d65787403697363036f726700cc98b84003c002200105000014610500ad00000000000103c0212a0103f130328001000000000000013503c0382a046d8000000000000000000000001803c044200104f800000002000000000000001301c00201c01101c02101c03801c044]
def data3 : List Nat := [
  0x01d5000002026377056363746c640761757468646e730472697065036e657400c100095602036e7330026a61c0188056011402c022c13f5e1402036e733103756f6302637700c65db11502036e7332c03bbe70fef402036e7333c03bc81ac76302076b61647573686907637572696e666fc03f41d07a3f020b6e7330312d736572766572c06641d07a2403c0022001067c00e00000000000000000008603c0222001063000000008000000000000001403c0222001063000000009000000000000001401c00201c02201c03701c04801c05301c05e01c075,
  0x019100000019640802204854a102492ce0c50c714f366ebbd520cba38bbefc91cf295eee8e6ef7d48ca502026e7307616e7963617374036e696302637800cc3dd81002036e73310a616e7963617374646e7302637a00b9266c6c02036e7332c044b91cc2c203c028200105000014601600ad00000000000103c0402a00fea0dead0000000000000000beef01c02801c04001c058,
  0x0100010000cf3b0d022023e40296dd897e15a7b78061b987f240d0415abc20382fdcdaec24c7fc8a9e0f02036e73340561706e6963036e657400ca0c1f3502046e7333310672636f646530c032c200191f020563792d6e7307616e796361737403706368c032cc3dd82c020565737469610369637305666f727468026772008b5bbf03020663796e69633403646e7302637900c22a1d10020663796e696336c088c22a1d0503c02820010dd800120000000000000000005303c03c2001067800200000000000000000003103c04f200105000014604400ad00000000000103c068200106482c300000000000000191000301c02801c03c01c04f01c06801c08101c095,
  0x014001000085cf080220b85680d4065db4e7cfaf8b349dd43901ec51b78f5e9c57c332bc6d905beba7020204646e7331036e69630563796d727500d5f8db030204646e7332c02d673153030204646e7333c02dd5f8df030204646e7334c02d2be633030204646e7361c02d9c9a64030204646e7362c02d9c9a65030204646e7363c02d9c9a66030204646e7364c02d9c9a670303c0282a01061804030000000000000000000303c03d2401fd8004030000000000000000000303c0492a01061804070000000000000000000303c0552401fd8004070000000000000000000303c06120010502ad090000000000000000000303c06d200105022eda0000000000000000000303c079261000a110090000000000000000000303c085261000a110100000000000000000000301c02801c03d01c04901c05501c06101c06d01c07901c085,
  0x01ab0000004dd70d02202079b2824eee39ec9ab51f32b199a6bcc68162ca56bd12c2740b8c800fc611c4020161036e69630463796f7500c2a9da78020162c02ab9184078020163c02ad412f878020164c02ad412f97803c0282001067c13cc0000000000000001012003c0392a042b0013cc0000000000000001012003c0422a042b0013ee0000000000000000012003c04b2a042b0013ff0000000000000000012001c02801c03901c04201c04b,
  0x01ac0000004f0d0d0220cff0f3ecdbc529c1f0031ba1840bfb835853b9209ed1e508fff48451d7b778e2020161026e73036e696302637a00c2000c01020162c02ac2000d01020163c02ac2000e01020164c02ac11dce0103c02820010678000f0000000000000000000103c03a2001067800100000000000000000000103c0432001067800110000000000000000000103c04c2001067800010000000000000000000101c02801c03a01c04301c04c,
  0x01b00000003043080220bc18991e60b16ed8791d94ea935d83e9d40e2cba9ac8b824a40191e5f5f50ae402026130036e6963056461627572004116b41902026132c02b4116b71902026230c02b4116b51902026330c02b4116b61903c0282a01884000ae0000000000000000002503c03b2a01884000b10000000000000000002503c0452a01884000af0000000000000000002503c04f2a01884000b00000000000000000002501c02801c03b01c04501c04f,
  0x01fa00000068f6080220e0ca4bc0fd88a68e2a90402fd62da9f321940b79f5d1e01ba1141d2b5301d8f502076e732d746c643116636861726c6573746f6e726f6164726567697374727903636f6d00d8ef206902076e732d746c6432c030d8ef226902076e732d746c6433c030d8ef246902076e732d746c6434c030d8ef266902076e732d746c6435c030d8ef3c6903c0282001486048020032000000000000006903c0512001486048020034000000000000006903c0602001486048020036000000000000006903c06f2001486048020038000000000000006903c07e2001486048050000000000000000006901c02801c05101c06001c06f01c07e,
  0x01fc0000005614080220d2494cb312c97d6a1a075f55601ba62cb59d2672e23658e3edacf4777bc614b1020476306e30036e69630564616e63650041161832020476306e31c02d41161932020476306e32c02d41161a32020476306e33c02da1e80c32020476326e30c02d41161b32020476326e31c02da1e80d3203c0282a018840001a0000000000000000005003c03d2a018840001b0000000000000000005003c0492a018840001c0000000000000000005003c0552a01884000f60000000000000000005003c0612a018840001d0000000000000000005003c06d2a01884000f70000000000000000005001c02801c03d01c04901c05501c06101c06d,
  0x01af00000079a8080220c9bb359f8d99fb1ae7cf5a5972bd18448ee89775e7b6fb0bd19d3bec970a4e8b02026130036e69630464617461004116601902026132c02b4116631902026230c02b4116611902026330c02b4116621903c0282a018840005e0000000000000000002503c03a2a01884000610000000000000000002503c0442a018840005f0000000000000000002503c04e2a01884000600000000000000000002501c02801c03a01c04401c04e,
  0x01f30000007675080220b0a4309d9ad85d8050259a80a8261b1003251cb1d2f3c74aa30e09335aaf2501020161036e696304646174650025d1c00a020162c02a25d1c20a020163c02a25d1c40a02036e733103646e73c02a9c9a902e02036e7332c04f9c9a912e02036e7333c04f9c9a9f2e03c02820010dcd00010000000000000000001003c03920010dcd00020000000000000000001003c04220010dcd00030000000000000000001003c04b261000a110710000000000000000002e03c05a261000a110720000000000000000002e03c065261000a110730000000000000000002e01c02801c03901c04201c04b01c05a01c065,
  0x01fd0000003a4208022046e07950175a552b198f6739926f1b881c5ccab279839247684840018a9f4cc0020476306e30036e696306646174696e670041161c1c020476306e31c02d41161d1c020476306e32c02d41161e1c020476306e33c02da1e80e1c020476326e30c02d41161f1c020476326e31c02da1e80f1c03c0282a018840001e0000000000000000002803c03e2a018840001f0000000000000000002803c04a2a01884000200000000000000000002803c0562a01884000f80000000000000000002803c0622a01884000210000000000000000002803c06e2a01884000f90000000000000000002801c02801c03e01c04a01c05601c06201c06e,
  0x019f0000002c50080220fb16fd51d18855f4127721bab619ca805d69817a84ce73b90be152205ca31a400201610b676d6f7265676973747279036e65740025d1c004020162c02a25d1c20402016bc02a25d1c40402016cc02a25d1c60403c02820010dcd00010000000000000000000403c04020010dcd00020000000000000000000403c05220010dcd00040000000000000000000401c02801c04001c04901c052,
  0x01fa000000a312080220bcd63da0f1195997a0ea25780e7b0675ec7877052cd6fe837e8f112c1fad388602076e732d746c643116636861726c6573746f6e726f6164726567697374727903636f6d00d8ef206902076e732d746c6432c030d8ef226902076e732d746c6433c030d8ef246902076e732d746c6434c030d8ef266902076e732d746c6435c030d8ef3c6903c0282001486048020032000000000000006903c0512001486048020034000000000000006903c0602001486048020036000000000000006903c06f2001486048020038000000000000006903c07e2001486048050000000000000000006901c02801c05101c06001c06f01c07e,
  0x01fa000000accd0802202db4b865e2a04b4324e6b5359acf3fdbceb10e9e2ae8597ff7a71b9d770a70e102076e732d746c643116636861726c6573746f6e726f6164726567697374727903636f6d00d8ef206902076e732d746c6432c030d8ef226902076e732d746c6433c030d8ef246902076e732d746c6434c030d8ef266902076e732d746c6435c030d8ef3c6903c0282001486048020032000000000000006903c0512001486048020034000000000000006903c0602001486048020036000000000000006903c06f2001486048020038000000000000006903c07e2001486048050000000000000000006901c02801c05101c06001c06f01c07e,
  0x01e8000000cadb08022013ef8fe3e8e2afae0a24b7453d086e2eb0df7828b03a8af18fcae43bec07fd38020161036e6963036464730025d1c00a020162c02a25d1c20a020163c02a25d1c40a020178c02a9c9aac52020179c02a9c9aad5202017ac02a9c9aae5203c02820010dcd00010000000000000000001003c03820010dcd00020000000000000000001003c04120010dcd00030000000000000000001003c04a261000a110740000000000000001008203c053261000a110750000000000000001008203c05c261000a110760000000000000001008201c02801c03801c04101c04a01c05301c05c,
  0x01ed0000006883080220f341357809a5954311ccb82ade114c6c1d724a75c0395137aa3978035425e78d020161036e696302646500c2000035020166c02a515ba40502016c026465036e6574004d433f6902016ec042c2926b06020173c042c3f3891a02017ac02ac2f6600103c0282001067800020000000000000000005303c0372a02056800000002000000000000005303c04020010668001f0011000000000000010503c04f2001067c10110001000000000000005303c0582003000800140000000000000000005303c0612a020568fe02000000000000000000de01c02801c03701c04001c04f01c05801c061,
  0x013f010000060b080220d803cd689af6d85a8d11d95f330d35e7587831dc01f61886d4c47f3e5398af290204646e7331036e6963046465616c00d5f8da410204646e7332c02d673152410204646e7333c02dd5f8de410204646e7334c02d2be632410204646e7361c02d9c9a64030204646e7362c02d9c9a65030204646e7363c02d9c9a66030204646e7364c02d9c9a670303c0282a01061804020000000000000000006503c03c2401fd8004020000000000000000006503c0482a01061804060000000000000000006503c0542401fd8004060000000000000000006503c06020010502ad090000000000000000000303c06c200105022eda0000000000000000000303c078261000a110090000000000000000000303c084261000a110100000000000000000000301c02801c03c01c04801c05401c06001c06c01c07801c084,
  0x01070100007b620801142300a755b90e6e18845757994ffd35d160f8b1c3007b620802208c442bfe32daff402fcc59d26a90f5ecac593fb6ba8a6396bd21686e3bd0d24b00a9fc080114e4209e3f2bfdbf136d547329f367ae9bd03a3beb00a9fc080220affee7db437839677f9b16547175bfa4f22a0cfc0fc2f374af5884c523efa54c020161036e6963066465616c657200c2a9da8a020162c084b918408a020163c084d412f88a020164c084d412f98a03c0822001067c13cc0000000000000001013803c0952a042b0013cc0000000000000001013803c09e2a042b0013ee0000000000000000013803c0a72a042b0013ff0000000000000000013801c08201c09501c09e01c0a7,
  0x01fc0000007fc608022079cce4262f66137fa812ecefe1bc11046a85cf728aca6bb5f6defffa61a506c1020476306e30036e6963056465616c73004116140f020476306e31c02d4116150f020476306e32c02d4116160f020476306e33c02da1e80a0f020476326e30c02d4116170f020476326e31c02da1e80b0f03c0282a01884000160000000000000000001503c03d2a01884000170000000000000000001503c0492a01884000180000000000000000001503c0552a01884000f40000000000000000001503c0612a01884000190000000000000000001503c06d2a01884000f50000000000000000001501c02801c03d01c04901c05501c06101c06d,
  0x01fd000000fa0f080220a0ef2c85bf1d4f53a28654036baa10e5e6c124f4fdb4e46b2f05de8bbb07e6d7020476306e30036e696306646567726565004116183d020476306e31c02d4116193d020476306e32c02d41161a3d020476306e33c02da1e80c3d020476326e30c02d41161b3d020476326e31c02da1e80d3d03c0282a018840001a0000000000000000006103c03e2a018840001b0000000000000000006103c04a2a018840001c0000000000000000006103c0562a01884000f60000000000000000006103c0622a018840001d0000000000000000006103c06e2a01884000f70000000000000000006101c02801c03e01c04a01c05601c06201c06e,
  0x01ff000000edca080220b647a584112e0f531f2a28aa94b345079d603bbb409e11a55a16f459c60af4df020476306e30036e69630864656c69766572790041161c30020476306e31c02d41161d30020476306e32c02d41161e30020476306e33c02da1e80e30020476326e30c02d41161f30020476326e31c02da1e80f3003c0282a018840001e0000000000000000004803c0402a018840001f0000000000000000004803c04c2a01884000200000000000000000004803c0582a01884000f80000000000000000004803c0642a01884000210000000000000000004803c0702a01884000f90000000000000000004801c02801c04001c04c01c05801c06401c070,
  0x01f300000057c70802203b9deef2f217ee45d415525de6979d780f2afa1a1c95b8f2f437bd636cfd2095020161036e69630464656c6c0025d1c009020162c02a25d1c209020163c02a25d1c40902036e733103646e73c02a9c9a902f02036e7332c04f9c9a912f02036e7333c04f9c9a9f2f03c02820010dcd00010000000000000000000903c03920010dcd00020000000000000000000903c04220010dcd00030000000000000000000903c04b261000a110710000000000000000002f03c05a261000a110720000000000000000002f03c065261000a110730000000000000000002f01c02801c03901c04201c04b01c05a01c065,
  0x010901000073ba07011473c6d3a49646135321db4b2b68e332e929cefc710073ba070220456b29b8b2f010f1159bd118e9a3e9fcb29e385e3bf206199379a65e5baa7f7d00abd5070114f7dabdf701ed2ed63d349d5ddae4b2776ea541b500abd5070220af8c96d91ee031df7df47231cbeb7a93ae1572f8eb3f71d666fa421e8f55ad67020161036e69630864656c6f6974746500c2a9da50020162c084b9184050020163c084d412f850020164c084d412f95003c0822001067c13cc0000000000000001008003c0972a042b0013cc0000000000000001008003c0a02a042b0013ee0000000000000000008003c0a92a042b0013ff0000000000000000008001c08201c09701c0a001c0a9,
  0x01b0000000fa4508022088613e5643f713d61b4e642f2638bd959492c3e0d116fbe27af764dc6c0ed75b02026130036e69630564656c7461004116e01902026132c02b4116e31902026230c02b4116e11902026330c02b4116e21903c0282a01884000da0000000000000000002503c03b2a01884000dd0000000000000000002503c0452a01884000db0000000000000000002503c04f2a01884000dc0000000000000000002501c02801c03b01c04501c04f,
  0x01ff0000007e3a080220225235f8fd2305949050d93caa91edba96fedb42fe018d125ccc0373776f0725020476306e30036e69630864656d6f637261740041162020020476306e31c02d41162120020476306e32c02d41162220020476306e33c02da1e81020020476326e30c02d41162320020476326e31c02da1e8112003c0282a01884000220000000000000000003203c0402a01884000230000000000000000003203c04c2a01884000240000000000000000003203c0582a01884000fa0000000000000000003203c0642a01884000250000000000000000003203c0702a01884000fb0000000000000000003201c02801c04001c04c01c05801c06401c070,
  0x01fd0000007192080220d20a39cb427d7ba59a4483ac8e4e774a5d197dfa36ad7a47696501619dfd6b5f020476306e30036e69630664656e74616c0041161831020476306e31c02d41161931020476306e32c02d41161a31020476306e33c02da1e80c31020476326e30c02d41161b31020476326e31c02da1e80d3103c0282a018840001a0000000000000000004903c03e2a018840001b0000000000000000004903c04a2a018840001c0000000000000000004903c0562a01884000f60000000000000000004903c0622a018840001d0000000000000000004903c06e2a01884000f70000000000000000004901c02801c03e01c04a01c05601c06201c06e,
  0x01fe000000ad470802207fa7576377dd2904a2dc223d4d21c8d75b394f65794afb21cda90bf56c78c8ce020476306e30036e69630764656e74697374004116181b020476306e31c02d4116191b020476306e32c02d41161a1b020476306e33c02da1e80c1b020476326e30c02d41161b1b020476326e31c02da1e80d1b03c0282a018840001a0000000000000000002703c03f2a018840001b0000000000000000002703c04b2a018840001c0000000000000000002703c0572a01884000f60000000000000000002703c0632a018840001d0000000000000000002703c06f2a01884000f70000000000000000002701c02801c03f01c04b01c05701c06301c06f,
  0x01f70000002b0c0802205017e17ac3f43d2dcca968723fddb1b641765a38f53afba0469e33c9ac75c582007e28080220948f1b60d22606e7488f84c0ad2e0546376aeedfd15b6ded198127add5d8928f009bb30802201382964834be4f7bf4830a27955ec8f6a1557ec20479ae946f6910a131e54ab9020161036e6963046465736900c2a9da51020162c076b9184051020163c076d412f851020164c076d412f95103c0742001067c13cc0000000000000001008103c0852a042b0013cc0000000000000001008103c08e2a042b0013ee0000000000000000008103c0972a042b0013ff0000000000000000008101c07401c08501c08e01c097,
  0x01eb000000c4f6080220400c06349da05ff7c9b9d8c11857e8e9c3ce947ea05cc4c7c6de878bf2a496ee020161036e69630664657369676e0025d1c00a020162c02a25d1c20a020163c02a25d1c40a020178c02a9c9aac52020179c02a9c9aad5202017ac02a9c9aae5203c02820010dcd00010000000000000000001003c03b20010dcd00020000000000000000001003c04420010dcd00030000000000000000001003c04d261000a110740000000000000001008203c056261000a110750000000000000001008203c05f261000a110760000000000000001008201c02801c03b01c04401c04d01c05601c05f,
  0x01fa000000eaaa080220b942e2ce5aebf62fca59d05707e6dbb795211d540d8adba02e9e89e83342478502076e732d746c643116636861726c6573746f6e726f6164726567697374727903636f6d00d8ef206902076e732d746c6432c030d8ef226902076e732d746c6433c030d8ef246902076e732d746c6434c030d8ef266902076e732d746c6435c030d8ef3c6903c0282001486048020032000000000000006903c0512001486048020034000000000000006903c0602001486048020036000000000000006903c06f2001486048020038000000000000006903c07e2001486048050000000000000000006901c02801c05101c06001c06f01c07e,
  0x01040100007c7407011489fe558d6ea8dcaf797b2235dc3c246108a2b74e007c74070220bcd5350bd4181a15de2fe9fb448aae594da19bfbfce42afc9d63693dbd45a4b900811b070114e2fbee1cc8da9ce0bd4d74a688491ed1315d056800811b0702208f83e4018fb981e5f7d18df96549ec57b31a143c6f8a6d010038108525425b7e020161036e69630364686c00c2a9da52020162c084b9184052020163c084d412f852020164c084d412f95203c0822001067c13cc0000000000000001008203c0922a042b0013cc0000000000000001008203c09b2a042b0013ee0000000000000000008203c0a42a042b0013ff0000000000000000008201c08201c09201c09b01c0a4,
  0x01ff0000000070080220e66f5d68588df7ba7bcf572688355fc59a367276c3c309ebdb6ffe155d5a2fb2020476306e30036e6963086469616d6f6e6473004116183c020476306e31c02d4116193c020476306e32c02d41161a3c020476306e33c02da1e80c3c020476326e30c02d41161b3c020476326e31c02da1e80d3c03c0282a018840001a0000000000000000006003c0402a018840001b0000000000000000006003c04c2a018840001c0000000000000000006003c0582a01884000f60000000000000000006003c0642a018840001d0000000000000000006003c0702a01884000f70000000000000000006001c02801c04001c04c01c05801c06401c070,
  0x014501000009a005011458ab5506cd049ddd784c487957d5d87c44e238b00009a0050220a2624874743790cb52066e9b50b06ebf915dc80355e2f9c10094295de2addfb7002eba0501145d42445c9c0aa2c65f6b9e23f90b3d5c30c4a256002eba050220a3d113a8af70bc8b9d35fc555a0ec7474482383fc4f73ca605f0ec498288fdc900895f05011491aadeac68b9579fc6602ca5fcc770bcfb7536b500895f05022064ece39f08b2542cfd13d6c484e25f29b2bb29fba98e082dd5294f9011f73020020161036e6963046469657400c2a9da91020162c0c4b9184091020163c0c4d412f891020164c0c4d412f99103c0c22001067c13cc0000000000000001014503c0d32a042b0013cc0000000000000001014503c0dc2a042b0013ee0000000000000000014503c0e52a042b0013ff0000000000000000014501c0c201c0d301c0dc01c0e5,
  0x01fe000000566e08022070f9666735926ed661ac90bd6c0f9c2a7bfb6ad24f5e9a4892ad7d25d7e151f5020476306e30036e6963076469676974616c0041161424020476306e31c02d41161524020476306e32c02d41161624020476306e33c02da1e80a24020476326e30c02d41161724020476326e31c02da1e80b2403c0282a01884000160000000000000000003603c03f2a01884000170000000000000000003603c04b2a01884000180000000000000000003603c0572a01884000f40000000000000000003603c0632a01884000190000000000000000003603c06f2a01884000f50000000000000000003601c02801c03f01c04b01c05701c06301c06f,
  0x01fd0000007174080220dd72f7eec3b8ce0e6a278a6d560abacabcdff4a4a9062eb8dbd96eddc910b140020476306e30036e696306646972656374004116182e020476306e31c02d4116192e020476306e32c02d41161a2e020476306e33c02da1e80c2e020476326e30c02d41161b2e020476326e31c02da1e80d2e03c0282a018840001a0000000000000000004603c03e2a018840001b0000000000000000004603c04a2a018840001c0000000000000000004603c0562a01884000f60000000000000000004603c0622a018840001d0000000000000000004603c06e2a01884000f70000000000000000004601c02801c03e01c04a01c05601c06201c06e,
  0x0100010000e94d0802200d647c2701e4d9988d38939e1e372c77dbc0f76d21c8d2bd6e40a21fbd4441a3020476306e30036e6963096469726563746f72790041161c0b020476306e31c02d41161d0b020476306e32c02d41161e0b020476306e33c02da1e80e0b020476326e30c02d41161f0b020476326e31c02da1e80f0b03c0282a018840001e0000000000000000001103c0412a018840001f0000000000000000001103c04d2a01884000200000000000000000001103c0592a01884000f80000000000000000001103c0652a01884000210000000000000000001103c0712a01884000f90000000000000000001101c02801c04101c04d01c05901c06501c071,
  0x01ff000000c7c4080220fa79b01e16956fa153e17df749592ab311ac88f7cca89102145a31bf327e7c0d020476306e30036e696308646973636f756e740041161c39020476306e31c02d41161d39020476306e32c02d41161e39020476306e33c02da1e80e39020476326e30c02d41161f39020476326e31c02da1e80f3903c0282a018840001e0000000000000000005703c0402a018840001f0000000000000000005703c04c2a01884000200000000000000000005703c0582a01884000f80000000000000000005703c0642a01884000210000000000000000005703c0702a01884000f90000000000000000005701c02801c04001c04c01c05801c06401c070,
  0x01f70000009880080220324144794f4fc2951d3ef2f1a6d2b335cdd0bd059caa3ac2eba809250c47a694020161036e696308646973636f7665720025d1c009020162c02a25d1c209020163c02a25d1c40902036e733103646e73c02a9c9a903002036e7332c0539c9a913002036e7333c0539c9a9f3003c02820010dcd00010000000000000000000903c03d20010dcd00020000000000000000000903c04620010dcd00030000000000000000000903c04f261000a110710000000000000000003003c05e261000a110720000000000000000003003c069261000a110730000000000000000003001c02801c03d01c04601c04f01c05e01c069,
  0x01af0000005f050802201d7c249775114e100decb96c9e6cba080bffc5398498c6d3fe2eed6cbaa3466302026130036e69630464697368004116582102026132c02b41165b2102026230c02b4116592102026330c02b41165a2103c0282a01884000560000000000000000003303c03a2a01884000590000000000000000003303c0442a01884000570000000000000000003303c04e2a01884000580000000000000000003301c02801c03a01c04401c04e,
  0x01b4000000644a08022006c661d544490aaf9c0efa121f0fd66ae957cb1900309fdae4a670ac4af1d37d0203616331056e73746c6403636f6d00c02aad1e0203616332c02cc02aae1e0203616333c02cc02aaf1e0203616334c02cc02ab01e03c0282001050001200000000000000000003003c03c2001050001210000000000000000003003c0472001050001220000000000000000003003c0522001050001230000000000000000003001c02801c03c01c04701c052,
  0x014300000204626f773106696e746e657402646a00c5f111820204626f7735c007c4c9c4290209767073343433363035036f7668036e657400253b6a1501c00201c01701c023,
  0x010601000072fa0d0220a8f5458366dffebc8411ff0d1105c2eeddc3cf934966266651f207a09ee9ad3e020161036e696302646b00d4584e7a020162c02ac1a366de020163c02ac2002e35020164c02ab99fc62d02016cc02a82e2d58a020170c02ac2002f2a020173c02ac1b0900f03c028200115800000180d000000000000012203c0372a01063000000080000000000000005303c0402001067800740000000000000000005303c0492620010a80ab0000000000000000004503c052200108780000e000008200e200d5008a03c05b200106780078004200ad00000000005303c0642a000d7800000102019301760144001501c02801c03701c04001c04901c05201c05b01c064,
  0x014a010000d9920d0220ad4401344bef3bd1f86737a2e2d008d5f5d138e101f4396a0461ff93a313c50e02026e7313626c61636b6e69676874736f6c7574696f6e7303636f6d005111f0cc02036e73310b756e697265676973747279036e6574004060010102036e7332036e696302646d00c77fc42302036e73320b756e69726567697374727904696e666f004060020102036e7332c02b4e99ca0402036e7333c04db99fc50302036e7334c078b99fc60302046e7333340463646e73c059c200012203c0282a0100a80dc10033000000000000003303c0492620005740000001000000000000000103c08f2a0100a80dc20033000000000000003303c09a2620010a80aa0000000000000000000303c0a52620010a80ab0000000000000000000303c0b02001067800040000000000000000002201c02801c04901c06301c07401c08f01c09a01c0a501c0b0,
  0x019f000000b0f008022051c787a8914386558c84d6cc426e45e73445a0d91094d2a8fb8f4d0ecdb602930201610b676d6f7265676973747279036e65740025d1c004020162c02a25d1c20402016bc02a25d1c40402016cc02a25d1c60403c02820010dcd00010000000000000000000403c04020010dcd00020000000000000000000403c05220010dcd00040000000000000000000401c02801c04001c04901c052,
  0x01030100020161066c6163746c64036f726700c800440a02026e73036e696302646f00be7148b102036e7331c018be7148b202036e7332c018be71410c02036e7334c018cc3dd87c02036e7335c018be71410d020670686c6f656d07756f7265676f6e036564750080df202303c00228010014a0000000000000000000001003c015200113e085d00106000000000000017703c025200113e085d00106000000000000017803c030200113e000000001000000000000001203c03b200105000014612400ad00000000000103c046200113e000000001000000000000001303c051200104680d0100200000000080df202301c00201c01501c02501c03001c03b01c04601c051,
  0x01fa000000b8b70802207fadd5020f126bc3792e13f6190a956abc040d7140fd0867ae9290f18cf5b96002076e732d746c643116636861726c6573746f6e726f6164726567697374727903636f6d00d8ef206902076e732d746c6432c030d8ef226902076e732d746c6433c030d8ef246902076e732d746c6434c030d8ef266902076e732d746c6435c030d8ef3c6903c0282001486048020032000000000000006903c0512001486048020034000000000000006903c0602001486048020036000000000000006903c06f2001486048020038000000000000006903c07e2001486048050000000000000000006901c02801c05101c06001c06f01c07e,
  0x01fd0000005f4a0802202a6b3bad3adaa076e2bd11bb0ef493effb17c7e32f041e30a8504c165f669652020476306e30036e696306646f63746f720041161815020476306e31c02d41161915020476306e32c02d41161a15020476306e33c02da1e80c15020476326e30c02d41161b15020476326e31c02da1e80d1503c0282a018840001a0000000000000000002103c03e2a018840001b0000000000000000002103c04a2a018840001c0000000000000000002103c0562a01884000f60000000000000000002103c0622a018840001d0000000000000000002103c06e2a01884000f70000000000000000002101c02801c03e01c04a01c05601c06201c06e,
  0x01fa000000be600802204aedf3d3b5d11c33c5a39badbe1708d3afc6276582bf1ee80e73a667ebb543c0020476306e30036e696303646f67004116202d020476306e31c02d4116212d020476306e32c02d4116222d020476306e33c02da1e8102d020476326e30c02d4116232d020476326e31c02da1e8112d03c0282a01884000220000000000000000004503c03b2a01884000230000000000000000004503c0472a01884000240000000000000000004503c0532a01884000fa0000000000000000004503c05f2a01884000250000000000000000004503c06b2a01884000fb0000000000000000004501c02801c03b01c04701c05301c05f01c06b,
  0x01fe00000099ee08022074ace87d5605021df3e619563249119e01d0975f30455df1bcfb3df54329f17b020476306e30036e696307646f6d61696e730041162033020476306e31c02d41162133020476306e32c02d41162233020476306e33c02da1e81033020476326e30c02d41162333020476326e31c02da1e8113303c0282a01884000220000000000000000005103c03f2a01884000230000000000000000005103c04b2a01884000240000000000000000005103c0572a01884000fa0000000000000000005103c0632a01884000250000000000000000005103c06f2a01884000fb0000000000000000005101c02801c03f01c04b01c05701c06301c06f,
  0x01ae000000cd9f080220e2bc058f7515c31dfdd8aded00ba870071ab84e0f32db3003c533c9a6d4f6f8402026130036e696303646f740041165c0102026132c02b41165f0102026230c02b41165d0102026330c02b41165e0103c0282a018840005a0000000000000000000103c0392a018840005d0000000000000000000103c0432a018840005b0000000000000000000103c04d2a018840005c0000000000000000000101c02801c03901c04301c04d,
  0x01f7000000f2b30802200d4cda13aeaeb337aab9c14691e912c1c363068e308792ca8109590a4e2fb502020161036e696308646f776e6c6f61640025d1c00a020162c02a25d1c20a020163c02a25d1c40a02036e733103646e73c02a9c9a903202036e7332c0539c9a913202036e7333c0539c9a9f3203c02820010dcd00010000000000000000001003c03d20010dcd00020000000000000000001003c04620010dcd00030000000000000000001003c04f261000a110710000000000000000003203c05e261000a110720000000000000000003203c069261000a110730000000000000000003201c02801c03d01c04601c04f01c05e01c069,
  0x01fa00000080ce080220be68de85ad9a87657ceb1f620fa37febfc725180e40117914886ccbb6947d61902076e732d746c643116636861726c6573746f6e726f6164726567697374727903636f6d00d8ef206902076e732d746c6432c030d8ef226902076e732d746c6433c030d8ef246902076e732d746c6434c030d8ef266902076e732d746c6435c030d8ef3c6903c0282001486048020032000000000000006903c0512001486048020034000000000000006903c0602001486048020036000000000000006903c06f2001486048020038000000000000006903c07e2001486048050000000000000000006901c02801c05101c06001c06f01c07e,
  0x01ae000000c865080220eb39cb7d7771f169881c4b9ece63e510c949949741d56988d8bb9cce24eb347902026130036e696303647476004116e40102026132c02b4116e70102026230c02b4116e50102026330c02b4116e60103c0282a01884000de0000000000000000000103c0392a01884000e10000000000000000000103c0432a01884000df0000000000000000000103c04d2a01884000e00000000000000000000101c02801c03901c04301c04d,
  0x01ed0000007d86080114096078e36e111a0773bf2546212b8bad920528ef007d860802203b001ea7fb42657ce51e6d30dbf91a71b10ec5264c2a01b14082c5e3bd9a6f9d020467746c64046265746106617269646e73036e65740261750025d1c20a020467746c6405616c706861c04c25d1c00a020467746c640564656c7461c04c25d1c60a020467746c640567616d6d61c04c25d1c40a03c04220010dcd00020000000000000000001003c06020010dcd00010000000000000000001003c07220010dcd00040000000000000000001003c08420010dcd00030000000000000000001001c04201c06001c07201c084,
  0x01b1000000597108022003cd996f132ffd32bc1bb4f08122d4a4f6570bb9c2ab647be9b1af174e79afaa02026130036e69630664756e6c6f70004116782102026132c02b41167b2102026230c02b4116792102026330c02b41167a2103c0282a01884000760000000000000000003303c03c2a01884000790000000000000000003303c0462a01884000770000000000000000003303c0502a01884000780000000000000000003301c02801c03c01c04601c050,
  0x01fb00000034c30802202a1bbc71245a57110165649e9c31bb6cf87dbfcfc3cc3f45ec4c7845f5dedbba02036e733103646e73036e6963066475706f6e74009c9a903402036e7332c02c9c9a913402036e7333c02c9c9a9f3402036e7334c02c9c9a9c3402036e7335c02c9c9a9d3402036e7336c02c9c9a9e3403c028261000a110710000000000000000003403c041261000a110720000000000000000003403c04c261000a110730000000000000000003403c057261000a110740000000000000000003403c062261000a110750000000000000000003403c06d261000a110760000000000000000003401c02801c04101c04c01c05701c06201c06d,
  0x017f000000bc8908022057603308e8a6d14065f069a08c050cde3ad0c769dd2bece4da5fcc9456bafb3202036e7370066e65746e6f6402736500c23ac6210205636f7a613107646e736e6f6465036e657400c2926a4a03c0282a0103f130330000000000000000005303c03c2001067c10100018000000000000005301c02801c03c,
  0x01d10000000c800802204544410064854638c7273c4481902b0b3218f905e6dae266a181dec2ab700bd300682a080220c94c9e4f38cc0283d1f3854a27f49c001e6d43689f35c0c9438e7d8731301662020161036e6963046476616700c2a9da54020162c050b9184054020163c050d412f854020164c050d412f95403c04e2001067c13cc0000000000000001008403c05f2a042b0013cc0000000000000001008403c0682a042b0013ee0000000000000000008403c0712a042b0013ff0000000000000000008401c04e01c05f01c06801c071,
  0x01ae00000070cf080220fe84d723dc95eeee237ed7452871da942fc883f0154cdead6bcfa3a36ef52dc902026130036e6963036476720041166c1102026132c02b41166f1102026230c02b41166d1102026330c02b41166e1103c0282a018840006a0000000000000000001703c0392a018840006d0000000000000000001703c0432a018840006b0000000000000000001703c04d2a018840006c0000000000000000001701c02801c03901c04301c04d,
  0x010d01000043e4080114e624a5121244d5706c2126ae7b48ce7546db0e210043e408022071034e42fcaa30abc99190c2b1d99d4d3d9c7ce005e020699a047d2b36e28aef02036e7331036e696302647a00c1c240f202036e7332c046d5b3a04202036e7333036e696302667200c086003102036e7334c046cc3dd86702036e7335c046c100094702056e732d647a07616672696e6963036e657400c4d8a82403c0422001434010300002000000000000000203c05e2001066030060001000000000001000103c06f200105000014610300ad00000000000103c07a2001067c00e00000000000000000007103c085200143f801200000000000000000003601c04201c05301c05e01c06f01c07a01c085,
  0x01f400000095200802206bb59812c4fdd633997053989f89ee0e3b466b694c11b739c8f79995176b3920020161036e69630565617274680025d1c00a020162c02a25d1c20a020163c02a25d1c40a02036e733103646e73c02a9c9a90e602036e7332c0509c9a91e602036e7333c0509c9a9fe603c02820010dcd00010000000000000000001003c03a20010dcd00020000000000000000001003c04320010dcd00030000000000000000001003c04c261000a11071000000000000000000e603c05b261000a11072000000000000000000e603c066261000a11073000000000000000000e601c02801c03a01c04301c04c01c05b01c066,
  0x01fa00000090760802200162a0530f6aa0945be047455ce29119bd4582eb2e4a08fee5961bc427f9f51802076e732d746c643116636861726c6573746f6e726f6164726567697374727903636f6d00d8ef206902076e732d746c6432c030d8ef226902076e732d746c6433c030d8ef246902076e732d746c6434c030d8ef266902076e732d746c6435c030d8ef3c6903c0282001486048020032000000000000006903c0512001486048020034000000000000006903c0602001486048020036000000000000006903c06f2001486048020038000000000000006903c07e2001486048050000000000000000006901c02801c05101c06001c06f01c07e,
  0x01b00000020161066c6163746c64036f726700c800440a02026e32036e696302656300c80cc70102026e3303646e73c01ccc3dd82702036e73310a616e7963617374646e7302637a00b9266c6c02036e7332c037b91cc2c203c00228010014a0000000000000000000001003c0152801000000600000000000000000000103c025200105000014603900ad00000000000103c0332a00fea0dead0000000000000000beef01c00201c01501c02501c03301c04b,
  0x016f000000962e080220a2500ae83c687fd270d0660a27527c3c96c6a136a86d9f2bdc714e9280bb5e32020161026e73036e69630365636f00b99fc504020162c02ab99fc60403c0282620010a80aa0000000000000000000403c03b2620010a80ab0000000000000000000401c02801c03b,
  0x01b000000014740802201423f0e6f60e7ba10535b7b7b88dea2b02a8ce3309e68ed2e9698687cdb9506502026130036e6963056564656b61004116101902026132c02b4116131902026230c02b4116111902026330c02b4116121903c0282a01884000120000000000000000002503c03b2a01884000150000000000000000002503c0452a01884000130000000000000000002503c04f2a01884000140000000000000000002501c02801c03b01c04501c04f,
  0x01c90100006da10802204172496cde85534e51129040355bd04b1fcfebae996dfdde652006f6f8b2ce760201610b6564752d73657276657273036e657400c005061e020162c02ac0210e1e020163c02ac01a5c1e020164c02ac01f501e020165c02ac00c5e1e020166c02ac023331e020167c02ac02a5d1e020168c02ac036701e020169c02ac02bac1e02016ac02ac0304f1e02016bc02ac034b21e02016cc02ac029a21e02016dc02ac037531e03c02820010503a83e0000000000000002003003c04020010503231d0000000000000002003003c0492001050383eb0000000000000000003003c05220010500856e0000000000000000003003c05b200105021ca10000000000000000003003c06420010503d4140000000000000000003003c06d20010503eea30000000000000000003003c0762001050208cc0000000000000000003003c07f2001050339c10000000000000000003003c0882001050270940000000000000000003003c091200105030d2d0000000000000000003003c09a20010500d9370000000000000000003003c0a320010501b1f90000000000000000003001c02801c04001c04901c05201c05b01c06401c06d01c07601c07f01c08801c09101c09a01c0a3,
  0x010001000067a8080220a81cd163f9e5927688cec92921df489da53dfbda0e116b78b02b97010814cad0020476306e30036e696309656475636174696f6e0041161c26020476306e31c02d41161d26020476306e32c02d41161e26020476306e33c02da1e80e26020476326e30c02d41161f26020476326e31c02da1e80f2603c0282a018840001e0000000000000000003803c0412a018840001f0000000000000000003803c04d2a01884000200000000000000000003803c0592a01884000f80000000000000000003803c0652a01884000210000000000000000003803c0712a01884000f90000000000000000003801c02801c04101c04d01c05901c06501c071,
  0x01c2000000864e080220000a3d89dc6cd4ba00ea8affee3967d3a26de7a545fbefe16ba07518fc8d54f602016203746c6402656500c2926a6e020165c02acc3dd824020265650361736fc02ed5b8337a020265650565656e6574c02ec128840502026e73c02ac32b570a03c0282001067c10100028000000000000005303c0372001067800940053000000000000005303c0402a02008800000021000000000000000203c04e20010bb840010000000000000000005301c02801c03701c04001c04e01c05e,
  0x016b000002036e733506756e6976696502616302617400c1abff4d02037269700370736703636f6d00931c00270204667263750365756e02656700c1e3010103c0022001062804534305000000000000005303c0192001041800010000000000000000003901c00201c01901c02b,
  0x01fc000000f3d608022092a9da686674b9bc30ee72224130a7c761d5b01902da9a5a62038c796a16bd33020476306e30036e696305656d61696c0041161823020476306e31c02d41161923020476306e32c02d41161a23020476306e33c02da1e80c23020476326e30c02d41161b23020476326e31c02da1e80d2303c0282a018840001a0000000000000000003503c03d2a018840001b0000000000000000003503c0492a018840001c0000000000000000003503c0552a01884000f60000000000000000003503c0612a018840001d0000000000000000003503c06d2a01884000f70000000000000000003501c02801c03d01c04901c05501c06101c06d,
  0x01b1000000e34a080220b19e38544f1c313575b683c8533acf792a0373c18f270ed0a1ebd2c3f77a291b02026130036e696306656d6572636b0041169c0102026132c02b41169f0102026230c02b41169d0102026330c02b41169e0103c0282a018840009a0000000000000000000103c03c2a018840009d0000000000000000000103c0462a018840009b0000000000000000000103c0502a018840009c0000000000000000000101c02801c03c01c04601c050,
  0x01fd000000695508022059f95fa7794aa6a855adf22154cee74e7ae44fb25142dbf999174b599df16771020476306e30036e696306656e65726779004116182d020476306e31c02d4116192d020476306e32c02d41161a2d020476306e33c02da1e80c2d020476326e30c02d41161b2d020476326e31c02da1e80d2d03c0282a018840001a0000000000000000004503c03e2a018840001b0000000000000000004503c04a2a018840001c0000000000000000004503c0562a01884000f60000000000000000004503c0622a018840001d0000000000000000004503c06e2a01884000f70000000000000000004501c02801c03e01c04a01c05601c06201c06e,
  0x01ff0000003787080220df8c5c2c75abf8ea572d1dfa8ba0a78d4f74ca7213521c1084154aa9684a5587020476306e30036e696308656e67696e6565720041161816020476306e31c02d41161916020476306e32c02d41161a16020476306e33c02da1e80c16020476326e30c02d41161b16020476326e31c02da1e80d1603c0282a018840001a0000000000000000002203c0402a018840001b0000000000000000002203c04c2a018840001c0000000000000000002203c0582a01884000f60000000000000000002203c0642a018840001d0000000000000000002203c0702a01884000f70000000000000000002201c02801c04001c04c01c05801c06401c070,
  0x0102010000ee15080220255f04d5d9bd1e74b0cb27ea0a6330e6445fe33ff6dd0a87b5c8fd1fba7e0439020476306e30036e69630b656e67696e656572696e670041161812020476306e31c02d41161912020476306e32c02d41161a12020476306e33c02da1e80c12020476326e30c02d41161b12020476326e31c02da1e80d1203c0282a018840001a0000000000000000001803c0432a018840001b0000000000000000001803c04f2a018840001c0000000000000000001803c05b2a01884000f60000000000000000001803c0672a018840001d0000000000000000001803c0732a01884000f70000000000000000001801c02801c04301c04f01c05b01c06701c073,
  0x0102010000483a080220f9d5cd8a254b1c4e2f53c8fbd8ab2faf9ba3af8479db07a23127efd0e97f23de020476306e30036e69630b656e7465727072697365730041161434020476306e31c02d41161534020476306e32c02d41161634020476306e33c02da1e80a34020476326e30c02d41161734020476326e31c02da1e80b3403c0282a01884000160000000000000000005203c0432a01884000170000000000000000005203c04f2a01884000180000000000000000005203c05b2a01884000f40000000000000000005203c0672a01884000190000000000000000005203c0732a01884000f50000000000000000005201c02801c04301c04f01c05b01c06701c073,
  0x019f000000efcb0802209183de01e842231d1f1f951de9b25c160dfddbab7411aadfc6fa69764b7d44e20201610b676d6f7265676973747279036e65740025d1c004020162c02a25d1c20402016bc02a25d1c40402016cc02a25d1c60403c02820010dcd00010000000000000000000403c04020010dcd00020000000000000000000403c05220010dcd00040000000000000000000401c02801c04001c04901c052,
  0x0100010000c958080220602442f2e32f4a351c89c118cf22cd5f34c324d57ec1df0616a7ded19bccd5ca020476306e30036e69630965717569706d656e740041162015020476306e31c02d41162115020476306e32c02d41162215020476306e33c02da1e81015020476326e30c02d41162315020476326e31c02da1e8111503c0282a01884000220000000000000000002103c0412a01884000230000000000000000002103c04d2a01884000240000000000000000002103c0592a01884000fa0000000000000000002103c0652a01884000250000000000000000002103c0712a01884000fb0000000000000000002101c02801c04101c04d01c05901c06501c071,
  0x0165000002026572056363746c640761757468646e730472697065036e657400c10009480207736177616e6577036e6f63036e657402657200c4c8600102077a6172616e6577c02ac4c8600203c0022001067c00e00000000000000000007201c00201c02201c03b,
  0x01b4000000edd80802201b2fcf0c2219910e8bcc22b8b982b9adea8074c3c20540d58312646469c1f0ef0203616331056e73746c6403636f6d00c02aad1e0203616332c02cc02aae1e0203616333c02cc02aaf1e0203616334c02cc02ab01e03c0282001050001200000000000000000003003c03c2001050001210000000000000000003003c0472001050001220000000000000000003003c0522001050001230000000000000000003001c02801c03c01c04701c052,
  0x01cd000000ca750a022025888a431bfa4251bf4e4d8340b9ec411ac57f6c20dab0feeb9ca68a34b13ac70208616e7963617374390769726f6e646e73036e657400c3fd400b0209616e79636173743130c031c3fd400c0209616e79636173743233c031c3fd410b0209616e79636173743234c031c3fd410c03c0282a0105b000040000000000000000000b03c0432a0105b000040000000000000000000c03c0542a0105b000050000000000000000000b03c0652a0105b000050000000000000000000c01c02801c04301c05401c065,
  0x01cf000000ad570802209d9858ae981aa53dd1143d93844e3d69b0fb73a9b4fe5759da39e036e754d40200c2bc080220d620d9b2db89deac2719014558be3818d962a8128f0880eb4bd7c7ae387d5c17020161036e696302657300c245fe01020163c050c2002235020167c050cc3dd901020168c050c200213503c04e2001067c21cc2000000000000064004103c05d2001067800440000000000000000005303c066200105000014700100ad00000000000103c06f2001067800400000000000000000005301c04e01c05d01c06601c06f,
  0x01fa0000009e740802209a963ead34a5139ed1f5e24fb422202cb704038ae15b670287bb31a04005532202076e732d746c643116636861726c6573746f6e726f6164726567697374727903636f6d00d8ef206902076e732d746c6432c030d8ef226902076e732d746c6433c030d8ef246902076e732d746c6434c030d8ef266902076e732d746c6435c030d8ef3c6903c0282001486048020032000000000000006903c0512001486048020034000000000000006903c0602001486048020036000000000000006903c06f2001486048020038000000000000006903c07e2001486048050000000000000000006901c02801c05101c06001c06f01c07e,
  0x01fd00000025c6080220fbc7771a3f609853616f5b68203d1645dd9ed6d9d56ba3bba93429cf43af8562020476306e30036e6963066573746174650041161c2f020476306e31c02d41161d2f020476306e32c02d41161e2f020476306e33c02da1e80e2f020476326e30c02d41161f2f020476326e31c02da1e80f2f03c0282a018840001e0000000000000000004703c03e2a018840001f0000000000000000004703c04a2a01884000200000000000000000004703c0562a01884000f80000000000000000004703c0622a01884000210000000000000000004703c06e2a01884000f90000000000000000004701c02801c03e01c04a01c05601c06201c06e,
  0x011f0000020161036e696302657400c59c4ac0020162c004c59c4ac101c00201c011,
  0x01af0000000f11080220389b8d170bf2914abe8cdd4bccdf454bca62523faa83f6f5f30cb8e672a75803020161036e69630865746973616c617400c2a9da30020162c02ab9184030020163c02ad412f830020164c02ad412f93003c0282001067c13cc0000000000000001004803c03d2a042b0013cc0000000000000001004803c0462a042b0013ee0000000000000000004803c04f2a042b0013ff0000000000000000004801c02801c03d01c04601c04f,
  0x01ca0000008c5608022089b9ef0445904e7c6074b5bece823c3e264fbd91c103d10bde603412343ce70c02017703646e7302657500c200191c020178c02ab9978d01020179c02ac2926a5a02026265c02a9526011a02027369c02ac102dd3e03c0282001067800200000000000000000002803c0372a020568fe000000000000000000657503c0402001067c10100023000000000000005303c0492001097800020001000000000093000203c0532001147080000100000000000000006201c02801c03701c04001c04901c053,
  0x01cd000000cc850a0220fc1ca626451621109d8314d5bbbb3da8c607e36fb0c5493bd6f237762c2c7bac0208616e7963617374390769726f6e646e73036e657400c3fd400b0209616e79636173743130c031c3fd400c0209616e79636173743233c031c3fd410b0209616e79636173743234c031c3fd410c03c0282a0105b000040000000000000000000b03c0432a0105b000040000000000000000000c03c0542a0105b000050000000000000000000b03c0652a0105b000050000000000000000000c01c02801c04301c05401c065,
  0x01cd00000092fb0a022004415714a6df5f737093919d47fda7fe0745d4a0ae9dfd4e8652d51d49bac4db0208616e7963617374390769726f6e646e73036e657400c3fd400b0209616e79636173743130c031c3fd400c0209616e79636173743233c031c3fd410b0209616e79636173743234c031c3fd410c03c0282a0105b000040000000000000000000b03c0432a0105b000040000000000000000000c03c0542a0105b000050000000000000000000b03c0652a0105b000050000000000000000000c01c02801c04301c05401c065,
  0x01fd00000030c708022051d1ab269ac995942f3aaa4bccf1c7b47b625892d8f7ac24dc74ed305df0d2c0020476306e30036e6963066576656e74730041162006020476306e31c02d41162106020476306e32c02d41162206020476306e33c02da1e81006020476326e30c02d41162306020476326e31c02da1e8110603c0282a01884000220000000000000000000603c03e2a01884000230000000000000000000603c04a2a01884000240000000000000000000603c0562a01884000fa0000000000000000000603c0622a01884000250000000000000000000603c06e2a01884000fb0000000000000000000601c02801c03e01c04a01c05601c06201c06e,
  0x01ff000000b4040802207af19d7f0da9372dc3ce58871f2a06efebdb7d44248ef60a7b0ca5a595192b4c020476306e30036e69630865786368616e67650041161c0e020476306e31c02d41161d0e020476306e32c02d41161e0e020476306e33c02da1e80e0e020476326e30c02d41161f0e020476326e31c02da1e80f0e03c0282a018840001e0000000000000000001403c0402a018840001f0000000000000000001403c04c2a01884000200000000000000000001403c0582a01884000f80000000000000000001403c0642a01884000210000000000000000001403c0702a01884000f90000000000000000001401c02801c04001c04c01c05801c06401c070,
  0x01fd0000008c920802208bb05a08616e1d432c7118d31fca1c48e3cfaa536dc81fac428eb3a4d695153c020476306e30036e6963066578706572740041162004020476306e31c02d41162104020476306e32c02d41162204020476306e33c02da1e81004020476326e30c02d41162304020476326e31c02da1e8110403c0282a01884000220000000000000000000403c03e2a01884000230000000000000000000403c04a2a01884000240000000000000000000403c0562a01884000fa0000000000000000000403c0622a01884000250000000000000000000403c06e2a01884000fb0000000000000000000401c02801c03e01c04a01c05601c06201c06e,
  0x01fe000000a93c08022006db817955e79f54d71e1d818b4f4c7edbbaff2ac602db75fa95e5b4c9dbce6c020476306e30036e6963076578706f736564004116183a020476306e31c02d4116193a020476306e32c02d41161a3a020476306e33c02da1e80c3a020476326e30c02d41161b3a020476326e31c02da1e80d3a03c0282a018840001a0000000000000000005803c03f2a018840001b0000000000000000005803c04b2a018840001c0000000000000000005803c0572a01884000f60000000000000000005803c0632a018840001d0000000000000000005803c06f2a01884000f70000000000000000005801c02801c03f01c04b01c05701c06301c06f,
  0x01fe000000f69a08022057d56c05ae39f31076a67fa9d97368908461d311dbd01f32174979a6e75921da020476306e30036e696307657870726573730041162010020476306e31c02d41162110020476306e32c02d41162210020476306e33c02da1e81010020476326e30c02d41162310020476326e31c02da1e8111003c0282a01884000220000000000000000001603c03f2a01884000230000000000000000001603c04b2a01884000240000000000000000001603c0572a01884000fa0000000000000000001603c0632a01884000250000000000000000001603c06f2a01884000fb0000000000000000001601c02801c03f01c04b01c05701c06301c06f,
  0x01b5000000fc910802209697a3469e8e24f5b49fecc0d2f2573cb96d106f26781583e705111befd1557102026130036e69630a65787472617370616365004116740102026132c02b4116770102026230c02b4116750102026330c02b4116760103c0282a01884000720000000000000000000103c0402a01884000750000000000000000000103c04a2a01884000730000000000000000000103c0542a01884000740000000000000000000101c02801c04001c04a01c054,
  0x01af000000439008022073f0339f6d64be40a263e66bf730b0ef53a4372978561e0cc8f3cb754df443fe02026130036e696304666167650041169c2102026132c02b41169f2102026230c02b41169d2102026330c02b41169e2103c0282a018840009a0000000000000000003303c03a2a018840009d0000000000000000003303c0442a018840009b0000000000000000003303c04e2a018840009c0000000000000000003301c02801c03a01c04401c04e,
  0x01fb000000d99008022023599facbcf180ca8a276a70e5e407236cbfcc5c9b27ce00972cb83f99803577020476306e30036e6963046661696c0041161438020476306e31c02d41161538020476306e32c02d41161638020476306e33c02da1e80a38020476326e30c02d41161738020476326e31c02da1e80b3803c0282a01884000160000000000000000005603c03c2a01884000170000000000000000005603c0482a01884000180000000000000000005603c0542a01884000f40000000000000000005603c0602a01884000190000000000000000005603c06c2a01884000f50000000000000000005601c02801c03c01c04801c05401c06001c06c,
  0x01b400000022d10802204b1c638c7fc58d11bf54b976ce4fba1cdb935f993f6b50194093b2479bff85040203616331056e73746c6403636f6d00c02aad1e0203616332c02cc02aae1e0203616333c02cc02aaf1e0203616334c02cc02ab01e03c0282001050001200000000000000000003003c03c2001050001210000000000000000003003c0472001050001220000000000000000003003c0522001050001230000000000000000003001c02801c03c01c04701c052,
  0x01f40000005f50080220272e92a109875aebba7ca98ac8b593c6a27059f58ea75d4b741a3452a63c97f4020161036e69630566616974680025d1c00a020162c02a25d1c20a020163c02a25d1c40a02036e733103646e73c02a9c9a903602036e7332c0509c9a913602036e7333c0509c9a9f3603c02820010dcd00010000000000000000001003c03a20010dcd00020000000000000000001003c04320010dcd00030000000000000000001003c04c261000a110710000000000000000003603c05b261000a110720000000000000000003603c066261000a110730000000000000000003601c02801c03a01c04301c04c01c05b01c066,
  0x01fd00000075460802202af2db00cdbdf65666c9afb59f4dc21cf8b8dc5b050a34fc594b1cbe6c858584020476306e30036e69630666616d696c790041161c27020476306e31c02d41161d27020476306e32c02d41161e27020476306e33c02da1e80e27020476326e30c02d41161f27020476326e31c02da1e80f2703c0282a018840001e0000000000000000003903c03e2a018840001f0000000000000000003903c04a2a01884000200000000000000000003903c0562a01884000f80000000000000000003903c0622a01884000210000000000000000003903c06e2a01884000f90000000000000000003901c02801c03e01c04a01c05601c06201c06e]
def data4 : List Nat := [
  0x01fa000000e2330802200877bcb676b4b8470a843b7a72560351adef09c067ac1445cac5579da6acc11d020476306e30036e69630366616e0041161439020476306e31c02d41161539020476306e32c02d41161639020476306e33c02da1e80a39020476326e30c02d41161739020476326e31c02da1e80b3903c0282a01884000160000000000000000005703c03b2a01884000170000000000000000005703c0472a01884000180000000000000000005703c0532a01884000f40000000000000000005703c05f2a01884000190000000000000000005703c06b2a01884000f50000000000000000005701c02801c03b01c04701c05301c05f01c06b,
  0x01ab000000637a0802207842246f760a21e694f1d8b64754f0d5bb27ef6a33f25e2f3f2dee26b33b118b020161036e69630466616e7300c2a9da27020162c02ab9184027020163c02ad412f827020164c02ad412f92703c0282001067c13cc0000000000000001003903c0392a042b0013cc0000000000000001003903c0422a042b0013ee0000000000000000003903c04b2a042b0013ff0000000000000000003901c02801c03901c04201c04b,
  0x01fb000000f796080220584397d0aabc1083c561c54dc4aca32aeec4b002c8a67fe09d4b1ea429da8dc1020476306e30036e6963046661726d0041162008020476306e31c02d41162108020476306e32c02d41162208020476306e33c02da1e81008020476326e30c02d41162308020476326e31c02da1e8110803c0282a01884000220000000000000000000803c03c2a01884000230000000000000000000803c0482a01884000240000000000000000000803c0542a01884000fa0000000000000000000803c0602a01884000250000000000000000000803c06c2a01884000fb0000000000000000000801c02801c03c01c04801c05401c06001c06c,
  0x01f60000002ce6080220cd092da4b2e46bab4b5fea2310c7c8007e8b5732f5bb3cb6e0a01a4cef212c70020161036e6963076661726d6572730025d1c009020162c02a25d1c209020163c02a25d1c40902036e733103646e73c02a9c9a903702036e7332c0529c9a913702036e7333c0529c9a9f3703c02820010dcd00010000000000000000000903c03c20010dcd00020000000000000000000903c04520010dcd00030000000000000000000903c04e261000a110710000000000000000003703c05d261000a110720000000000000000003703c068261000a110730000000000000000003701c02801c03c01c04501c04e01c05d01c068,
  0x01ec000000c38b08022099bbddd068ec695d622dc3a186fd015d9d47d2b26056cdab45ab8e45fc99dd87020161036e69630766617368696f6e0025d1c00a020162c02a25d1c20a020163c02a25d1c40a020178c02a9c9aac52020179c02a9c9aad5202017ac02a9c9aae5203c02820010dcd00010000000000000000001003c03c20010dcd00020000000000000000001003c04520010dcd00030000000000000000001003c04e261000a110740000000000000001008203c057261000a110750000000000000001008203c060261000a110760000000000000001008201c02801c03c01c04501c04e01c05701c060,
  0x013f010000c4dc080220ae5d5376961980ddeffc4e0db6a516ffaa3ee0949387afe48f8bffe7cb0651be0204646e7331036e6963046661737400d5f8da420204646e7332c02d673152420204646e7333c02dd5f8de420204646e7334c02d2be632420204646e7361c02d9c9a64030204646e7362c02d9c9a65030204646e7363c02d9c9a66030204646e7364c02d9c9a670303c0282a01061804020000000000000000006603c03c2401fd8004020000000000000000006603c0482a01061804060000000000000000006603c0542401fd8004060000000000000000006603c06020010502ad090000000000000000000303c06c200105022eda0000000000000000000303c078261000a110090000000000000000000303c084261000a110100000000000000000000301c02801c03c01c04801c05401c06001c06c01c07801c084,
  0x01b0000000e0a708022013b91145d3199c419b0b4bafb3938f08388b7b52bf8983c24e068bf63075b68b02026130036e6963056665646578004116e42102026132c02b4116e72102026230c02b4116e52102026330c02b4116e62103c0282a01884000de0000000000000000003303c03b2a01884000e10000000000000000003303c0452a01884000df0000000000000000003303c04f2a01884000e00000000000000000003301c02801c03b01c04501c04f,
  0x01af000000419208022000f7f4b6df67dc7b828c14829884908ee92e57fe312ed483c43da299fa5ddae5020161036e696308666565646261636b00c2a9da32020162c02ab9184032020163c02ad412f832020164c02ad412f93203c0282001067c13cc0000000000000001005003c03d2a042b0013cc0000000000000001005003c0462a042b0013ee0000000000000000005003c04f2a042b0013ff0000000000000000005001c02801c03d01c04601c04f,
  0x01b200000060dc08022033fcab9b1f82f04ca4ad6685fad6e660cfe968c2d0c97c08107de4ba5c5735fa02026130036e696307666572726172690041167c1902026132c02b41167f1902026230c02b41167d1902026330c02b41167e1903c0282a018840007a0000000000000000002503c03d2a018840007d0000000000000000002503c0472a018840007b0000000000000000002503c0512a018840007c0000000000000000002501c02801c03d01c04701c051,
  0x01f6000000b22408022089bd8dec1256f0cae5edc8f2618fb6ad4149ea9028afd909632727eaca092b3c020161036e6963076665727265726f0025d1c009020162c02a25d1c209020163c02a25d1c40902036e733103646e73c02a9c9a903902036e7332c0529c9a913902036e7333c0529c9a9f3903c02820010dcd00010000000000000000000903c03c20010dcd00020000000000000000000903c04520010dcd00030000000000000000000903c04e261000a110710000000000000000003903c05d261000a110720000000000000000003903c068261000a110730000000000000000003901c02801c03c01c04501c04e01c05d01c068,
  0x015f010000d321080220924e552f60cbc5aa2517d0f59d658b119f211113e9a98f34402396ec8a96a2d102016102666900c1a60401020162c02ac2926a1a020163c02ac2000b68020164c02a4d48e5fd020165c02ac200010e020166c02a57ef7fc6020167c02acc3dd862020168c02a57ef780b020169c02ac200191e02016ac02ab99fc7be03c0282001070800100053000000000000005303c0332001067c10100006000000000000005303c03c20010678000e0104000000000000005303c0452a0103f000000302000000000000005303c04e2001067800040000000000000000000e03c0572a0013f000000003000000000000aaaa03c060200105000014609800ad00000000000103c0692001067800a00000000000000000aaaa03c0722001067800200000000000000000003003c07b2620010a80ac0000000000000000019001c02801c03301c03c01c04501c04e01c05701c06001c06901c07201c07b,
  0x01af000000053b0802204bbbff995d2b4cf8e709dec8be78ca00b480ddf6c2c1d7879041e79f8e9d04b802026130036e696304666961740041167c0102026132c02b41167f0102026230c02b41167d0102026330c02b41167e0103c0282a018840007a0000000000000000000103c03a2a018840007d0000000000000000000103c0442a018840007b0000000000000000000103c04e2a018840007c0000000000000000000101c02801c03a01c04401c04e,
  0x01b4000000c73e080220829693f43d184738be9900816509d6ed1e7a4475690d32e60544219cbea4bb360203616331056e73746c6403636f6d00c02aad1e0203616332c02cc02aae1e0203616333c02cc02aaf1e0203616334c02cc02ab01e03c0282001050001200000000000000000003003c03c2001050001210000000000000000003003c0472001050001220000000000000000003003c0522001050001230000000000000000003001c02801c03c01c04701c052,
  0x01af0000004012080220f1fdb16b12b96a368d95fcc0f2a37bc54588dc9d0049f066aa21fb095e5ea7d702026130036e6963046669646f0041166c2902026132c02b41166f2902026230c02b41166d2902026330c02b41166e2903c0282a018840006a0000000000000000004103c03a2a018840006d0000000000000000004103c0442a018840006b0000000000000000004103c04e2a018840006c0000000000000000004101c02801c03a01c04401c04e,
  0x01e9000000915a080220713e96c6a83bf8e26d80db818d4061793b4c10405c13e7d9cf7d471ceefb6009020161036e69630466696c6d0025d1c00a020162c02a25d1c20a020163c02a25d1c40a020178c02a9c9aac52020179c02a9c9aad5202017ac02a9c9aae5203c02820010dcd00010000000000000000001003c03920010dcd00020000000000000000001003c04220010dcd00030000000000000000001003c04b261000a110740000000000000001008203c054261000a110750000000000000001008203c05d261000a110760000000000000001008201c02801c03901c04201c04b01c05401c05d,
  0x01e700000009a70d0220d2ecd166572437125f8d9b0157e59bb3d4201f5700c2749eb4b8dc1d30b2964b02016103646e7302627200c8db940a020162c02ac8bd290a020163c02ac8c0e90a020164c02ac8db9a0a020165c02ac8e5f80a020166c02ac8db9f0a03c028200112f800060000000000000000001003c037200112f800080000000000000000001003c040200112f8000a0000000000000000001003c049200112f800040000000000000000001003c052200112f800020000000000000000001003c05b200112f8000c0000000000000000001001c02801c03701c04001c04901c05201c05b,
  0x01fe0000006fd0080220860c6291c65e96464ecdb0f349a9f9f10b1f5872d8a39ba27dbfafe38d85f07d020476306e30036e69630766696e616e6365004116140a020476306e31c02d4116150a020476306e32c02d4116160a020476306e33c02da1e80a0a020476326e30c02d4116170a020476326e31c02da1e80b0a03c0282a01884000160000000000000000001003c03f2a01884000170000000000000000001003c04b2a01884000180000000000000000001003c0572a01884000f40000000000000000001003c0632a01884000190000000000000000001003c06f2a01884000f50000000000000000001001c02801c03f01c04b01c05701c06301c06f,
  0x0100010000cd39080220a7f8e91c44e9425540a603d224d4d58ffa08754c19e6480c0e437d562e387ff4020476306e30036e69630966696e616e6369616c0041161436020476306e31c02d41161536020476306e32c02d41161636020476306e33c02da1e80a36020476326e30c02d41161736020476326e31c02da1e80b3603c0282a01884000160000000000000000005403c0412a01884000170000000000000000005403c04d2a01884000180000000000000000005403c0592a01884000f40000000000000000005403c0652a01884000190000000000000000005403c0712a01884000f50000000000000000005401c02801c04101c04d01c05901c06501c071,
  0x013f010000ebca080220dc39cbebbf22e91a1bf4a4ba771010082509dbf8f3129b04199e8497ad8e71b60204646e7331036e6963046669726500d5f8da390204646e7332c02d673152390204646e7333c02dd5f8de390204646e7334c02d2be632390204646e7361c02d9c9a64030204646e7362c02d9c9a65030204646e7363c02d9c9a66030204646e7364c02d9c9a670303c0282a01061804020000000000000000005703c03c2401fd8004020000000000000000005703c0482a01061804060000000000000000005703c0542401fd8004060000000000000000005703c06020010502ad090000000000000000000303c06c200105022eda0000000000000000000303c078261000a110090000000000000000000303c084261000a110100000000000000000000301c02801c03c01c04801c05401c06001c06c01c07801c084,
  0x019f00000026d80802204ffb2b67bad9d7c6d0def9ec1dc4ac201ef4137364729662e19f329c108016340201610b676d6f7265676973747279036e65740025d1c004020162c02a25d1c20402016bc02a25d1c40402016cc02a25d1c60403c02820010dcd00010000000000000000000403c04020010dcd00020000000000000000000403c05220010dcd00040000000000000000000401c02801c04001c04901c052,
  0x0169000000b446080114242c19944d9422f066f20d3686225c2370d150d002036e7331036e6963086669726d64616c65004800330102036e7332c020482a730103c01c262001710a0300ad000000000000000103c033262001710d0300dc000000000000000101c01c01c033,
  0x01fb000000b5b70802204b82d075b2315da06036fa1f9530b15e142fce0ff748f3370cd36877b1c50aa2020476306e30036e696304666973680041161c17020476306e31c02d41161d17020476306e32c02d41161e17020476306e33c02da1e80e17020476326e30c02d41161f17020476326e31c02da1e80f1703c0282a018840001e0000000000000000002303c03c2a018840001f0000000000000000002303c0482a01884000200000000000000000002303c0542a01884000f80000000000000000002303c0602a01884000210000000000000000002303c06c2a01884000f90000000000000000002301c02801c03c01c04801c05401c06001c06c,
  0x01ec0000005dd308022051a5cc521f83d8bea6afe905d7f24a758c72d9341b550fc4e7ac0f272aceeca5020161036e69630766697368696e670025d1c00a020162c02a25d1c20a020163c02a25d1c40a020178c02a9c9aac52020179c02a9c9aad5202017ac02a9c9aae5203c02820010dcd00010000000000000000001003c03c20010dcd00020000000000000000001003c04520010dcd00030000000000000000001003c04e261000a110740000000000000001008203c057261000a110750000000000000001008203c060261000a110760000000000000001008201c02801c03c01c04501c04e01c05701c060,
  0x01e8000000ce6e08022067ac0d6b4abdb3e427baa988fce6dbb8f5420027ab25d219fec06e2ff8babf09020161036e6963036669740025d1c00a020162c02a25d1c20a020163c02a25d1c40a020178c02a9c9aac52020179c02a9c9aad5202017ac02a9c9aae5203c02820010dcd00010000000000000000001003c03820010dcd00020000000000000000001003c04120010dcd00030000000000000000001003c04a261000a110740000000000000001008203c053261000a110750000000000000001008203c05c261000a110760000000000000001008201c02801c03801c04101c04a01c05301c05c,
  0x01fe000000ffeb080220637c29078214fd97ddc25208cd00fa607ead761bcc5279aeef00ae91ae8997f0020476306e30036e6963076669746e657373004116142f020476306e31c02d4116152f020476306e32c02d4116162f020476306e33c02da1e80a2f020476326e30c02d4116172f020476326e31c02da1e80b2f03c0282a01884000160000000000000000004703c03f2a01884000170000000000000000004703c04b2a01884000180000000000000000004703c0572a01884000f40000000000000000004703c0632a01884000190000000000000000004703c06f2a01884000f50000000000000000004701c02801c03f01c04b01c05701c06301c06f,
  0x01950000003283080220f0023df1e7cfc69503ee2a48bc905461e7dce96453d19a2f3f52a3fa56cd4cfa02036e733102666a009078920102036e7332c02c9078924102036e7333c02cb9266c6c02036e7334c02cb91cc2c202036e7335c02ccc3dd88a03c028240229400100100c000000000000000103c035240229400100100d000000000000000101c02801c03501c04001c04b01c056,
  0x0139000002036e733107686f72697a6f6e036e657402666b005049d8fa02036e7332c0065049d8fb02036e7333c0065dbb97c101c00201c01b01c026,
  0x01f5000000d678080220a0c9b5d4a5705ba6563443e9a93be7202551583fd55054e2ffa1b210b17f3903020161036e696306666c69636b720025d1c009020162c02a25d1c209020163c02a25d1c40902036e733103646e73c02a9c9a903c02036e7332c0519c9a913c02036e7333c0519c9a9f3c03c02820010dcd00010000000000000000000903c03b20010dcd00020000000000000000000903c04420010dcd00030000000000000000000903c04d261000a110710000000000000000003c03c05c261000a110720000000000000000003c03c067261000a110730000000000000000003c01c02801c03b01c04401c04d01c05c01c067,
  0x01fe0000000838080220e78701c441507ded68434984e0842f491bb2bcef7f0f06c9b4c964aaaad7222f020476306e30036e696307666c69676874730041161c1f020476306e31c02d41161d1f020476306e32c02d41161e1f020476306e33c02da1e80e1f020476326e30c02d41161f1f020476326e31c02da1e80f1f03c0282a018840001e0000000000000000003103c03f2a018840001f0000000000000000003103c04b2a01884000200000000000000000003103c0572a01884000f80000000000000000003103c0632a01884000210000000000000000003103c06f2a01884000f90000000000000000003101c02801c03f01c04b01c05701c06301c06f,
  0x01f30000005fa40802203dd6835d42b1d12266d8fcb2fc29b0aecd5783ceda9792a213f32fb67889c64d020161036e696304666c69720025d1c009020162c02a25d1c209020163c02a25d1c40902036e733103646e73c02a9c9a903d02036e7332c04f9c9a913d02036e7333c04f9c9a9f3d03c02820010dcd00010000000000000000000903c03920010dcd00020000000000000000000903c04220010dcd00030000000000000000000903c04b261000a110710000000000000000003d03c05a261000a110720000000000000000003d03c065261000a110730000000000000000003d01c02801c03901c04201c04b01c05a01c065,
  0x01fe000000be870802203fdfbf7d66854164bd6f7ee44ca6e92f8e7d23e577bdc213d34dfb62a0093e85020476306e30036e696307666c6f72697374004116201e020476306e31c02d4116211e020476306e32c02d4116221e020476306e33c02da1e8101e020476326e30c02d4116231e020476326e31c02da1e8111e03c0282a01884000220000000000000000003003c03f2a01884000230000000000000000003003c04b2a01884000240000000000000000003003c0572a01884000fa0000000000000000003003c0632a01884000250000000000000000003003c06f2a01884000fb0000000000000000003001c02801c03f01c04b01c05701c06301c06f,
  0x01480100002de205011448bdcf4cddc2a930612a0d41e3dcbdfdefd6b433002de2050220d3d6c0d4a9e2e40e92da8203b7ee72a80ce3b9220fb51b212c6cb25a1b886d5e00ae4605011416e65148cd02d28c72be03ec2ad4f0b7b8ea156d00ae46050220e504240ff007eaa0829d9cf47f27fdd2b8c4c03e113c9d163fa0766d6716609d00cf5b050114ff6d6ba7638e7d8010867c4334d20eed0d8f0d0d00cf5b0502209f8bf09b0d588d739d4f88d9e2ab870c3ee1368ec69089ea744353ca27b49c21020161036e696307666c6f7765727300c2a9da9a020162c0c4b918409a020163c0c4d412f89a020164c0c4d412f99a03c0c22001067c13cc0000000000000001015403c0d62a042b0013cc0000000000000001015403c0df2a042b0013ee0000000000000000015403c0e82a042b0013ff0000000000000000015401c0c201c0d601c0df01c0e8,
  0x01fa000000ff7708022078e00a911e48a9109506338e1fb131c462333aa1e35c00e2f24971d28a97cbd002076e732d746c643116636861726c6573746f6e726f6164726567697374727903636f6d00d8ef206902076e732d746c6432c030d8ef226902076e732d746c6433c030d8ef246902076e732d746c6434c030d8ef266902076e732d746c6435c030d8ef3c6903c0282001486048020032000000000000006903c0512001486048020034000000000000006903c0602001486048020036000000000000006903c06f2001486048020038000000000000006903c07e2001486048050000000000000000006901c02801c05101c06001c06f01c07e,
  0x01e7000000664a080220db3703697384a6f8b3a944a21c1a81ffd921000b23aa4241380b4ba3aa28dea0020161036e696302666d00c2a9da1a020162c02ab918401a020163c02ad412f81a020164c02ad412f91a020165c02acc3dd889020166c02ace33fe0303c0282001067c13cc0000000000000001002603c0372a042b0013cc0000000000000001002603c0402a042b0013ee0000000000000000002603c0492a042b0013ff0000000000000000002603c052200105000014613700ad00000000000103c05b2620017108040ad2000000000000000301c02801c03701c04001c04901c05201c05b,
  0x01cf0000001a23080220a752ceaae4e28b4232244e5486d55889f117a15b81d3128ce7e9359f1d47a44500a2370802206e7925d8d6f243ef35381231b955528f25087dbf3e61cc5fcbcfe72948d0470b020161036e696302666f00c2a9da1b020162c050b918401b020163c050d412f81b020164c050d412f91b03c04e2001067c13cc0000000000000001002703c05d2a042b0013cc0000000000000001002703c0662a042b0013ee0000000000000000002703c06f2a042b0013ff0000000000000000002701c04e01c05d01c06601c06f,
  0x01fa000000e9c0080220cf97e293d4692c8085d5254b04c77780d1a217a692d5d0eeefc7a8e282614f1c02076e732d746c643116636861726c6573746f6e726f6164726567697374727903636f6d00d8ef206902076e732d746c6432c030d8ef226902076e732d746c6433c030d8ef246902076e732d746c6434c030d8ef266902076e732d746c6435c030d8ef3c6903c0282001486048020032000000000000006903c0512001486048020034000000000000006903c0602001486048020036000000000000006903c06f2001486048020038000000000000006903c07e2001486048050000000000000000006901c02801c05101c06001c06f01c07e,
  0x01b4000000a4c40802204aa1f08b292b3835fd27b5692d0cd0c1cd0119bf1455a69506e50cdc6c47d7610203616331056e73746c6403636f6d00c02aad1e0203616332c02cc02aae1e0203616333c02cc02aaf1e0203616334c02cc02ab01e03c0282001050001200000000000000000003003c03c2001050001210000000000000000003003c0472001050001220000000000000000003003c0522001050001230000000000000000003001c02801c03c01c04701c052,
  0x01b4000000f39608022088ea5ae874998c6549e8d2410e5e99499f2b896acb10c80d8abfb2d03b520c6e0203616331056e73746c6403636f6d00c02aad1e0203616332c02cc02aae1e0203616333c02cc02aaf1e0203616334c02cc02ab01e03c0282001050001200000000000000000003003c03c2001050001210000000000000000003003c0472001050001220000000000000000003003c0522001050001230000000000000000003001c02801c03c01c04701c052,
  0x01ff000000d72c080220d9d70577cd1802b894946548997bbe9671ecf7ab3a6f67882064c575d19cfa50020476306e30036e696308666f6f7462616c6c0041161416020476306e31c02d41161516020476306e32c02d41161616020476306e33c02da1e80a16020476326e30c02d41161716020476326e31c02da1e80b1603c0282a01884000160000000000000000002203c0402a01884000170000000000000000002203c04c2a01884000180000000000000000002203c0582a01884000f40000000000000000002203c0642a01884000190000000000000000002203c0702a01884000f50000000000000000002201c02801c04001c04c01c05801c06401c070,
  0x01f30000007ae308022013dfd0c4ac2b97b1294ada48fb4a36e5732739afc11818b4c46fcd17e3fc13df020161036e696304666f72640025d1c009020162c02a25d1c209020163c02a25d1c40902036e733103646e73c02a9c9a903e02036e7332c04f9c9a913e02036e7333c04f9c9a9f3e03c02820010dcd00010000000000000000000903c03920010dcd00020000000000000000000903c04220010dcd00030000000000000000000903c04b261000a110710000000000000000003e03c05a261000a110720000000000000000003e03c065261000a110730000000000000000003e01c02801c03901c04201c04b01c05a01c065,
  0x01fc00000090a0080220b76c4cb1e725cbac7c8043a1efe178802f19bbd47687ee2dd46bf30f626f1c08020476306e30036e696305666f7265780041161c41020476306e31c02d41161d41020476306e32c02d41161e41020476306e33c02da1e80e41020476326e30c02d41161f41020476326e31c02da1e80f4103c0282a018840001e0000000000000000006503c03d2a018840001f0000000000000000006503c0492a01884000200000000000000000006503c0552a01884000f80000000000000000006503c0612a01884000210000000000000000006503c06d2a01884000f90000000000000000006501c02801c03d01c04901c05501c06101c06d,
  0x01fe000000e1b5080220b782d732fe1e21301d1cf866096d3293925ab1e839ffc580591cb7ff8ef63983020476306e30036e696307666f7273616c650041162035020476306e31c02d41162135020476306e32c02d41162235020476306e33c02da1e81035020476326e30c02d41162335020476326e31c02da1e8113503c0282a01884000220000000000000000005303c03f2a01884000230000000000000000005303c04b2a01884000240000000000000000005303c0572a01884000fa0000000000000000005303c0632a01884000250000000000000000005303c06f2a01884000fb0000000000000000005301c02801c03f01c04b01c05701c06301c06f,
  0x01ac0000002503080220a53a95d8ab4105b83918a104f8828b1e0dddb48c290a8eff1960918e01eafae6020161036e696305666f72756d00c2a9da41020162c02ab9184041020163c02ad412f841020164c02ad412f94103c0282001067c13cc0000000000000001006503c03a2a042b0013cc0000000000000001006503c0432a042b0013ee0000000000000000006503c04c2a042b0013ff0000000000000000006501c02801c03a01c04301c04c,
  0x0101010000c4b7080220b440325c92cab8d16072f62301b71032691fd4c5d46ed01278cf945b0f8e360b020476306e30036e69630a666f756e646174696f6e004116182b020476306e31c02d4116192b020476306e32c02d41161a2b020476306e33c02da1e80c2b020476326e30c02d41161b2b020476326e31c02da1e80d2b03c0282a018840001a0000000000000000004303c0422a018840001b0000000000000000004303c04e2a018840001c0000000000000000004303c05a2a01884000f60000000000000000004303c0662a018840001d0000000000000000004303c0722a01884000f70000000000000000004301c02801c04201c04e01c05a01c06601c072,
  0x01f200000044e3080220ce046fbc1b2de0479ba9624f6344e0d6a22da6bb2c776a4782ba144f36d05d33020161036e696303666f780025d1c009020162c02a25d1c209020163c02a25d1c40902036e733103646e73c02a9c9a903f02036e7332c04e9c9a913f02036e7333c04e9c9a9f3f03c02820010dcd00010000000000000000000903c03820010dcd00020000000000000000000903c04120010dcd00030000000000000000000903c04a261000a110710000000000000000003f03c059261000a110720000000000000000003f03c064261000a110730000000000000000003f01c02801c03801c04101c04a01c05901c064,
  0x01ad000000c9340d02201b3386864d30ccc8f4541b985bf2ca320e4f52c57c53353f6d29c9ad58a5671f020164036e696302667200c200090102016503657874c02ac1b09016020166c039c2926a2e020167c039c200240103c02820010678000c0000000000000000000103c0372a000d7800000102019301760144002203c0442001067c10100011000000000000005303c04d20010678004c0000000000000000000101c02801c03701c04401c04d,
  0x013f0100005f7e08022004de92a2ccfbb31f3fe8b80a9e1c03b604062bb5726b1fe18d95c62f3cb8a26c0204646e7331036e6963046672656500d5f8da430204646e7332c02d673152430204646e7333c02dd5f8de430204646e7334c02d2be632430204646e7361c02d9c9a64030204646e7362c02d9c9a65030204646e7363c02d9c9a66030204646e7364c02d9c9a670303c0282a01061804020000000000000000006703c03c2401fd8004020000000000000000006703c0482a01061804060000000000000000006703c0542401fd8004060000000000000000006703c06020010502ad090000000000000000000303c06c200105022eda0000000000000000000303c078261000a110090000000000000000000303c084261000a110100000000000000000000301c02801c03c01c04801c05401c06001c06c01c07801c084,
  0x01d600000037130802203a1c09d9328367d2077aa1418dacab1e9799c6e419409c35416ed57ad0d61dd200a8c1080220b8b450ba7043973a3f43e9e8a70fac6a6b979838254e439553f17f403d24425e020161036e69630966726573656e69757300c2a9da56020162c050b9184056020163c050d412f856020164c050d412f95603c04e2001067c13cc0000000000000001008603c0642a042b0013cc0000000000000001008603c06d2a042b0013ee0000000000000000008603c0762a042b0013ff0000000000000000008601c04e01c06401c06d01c076,
  0x01aa00000040ff0d0220d3ccc215301c0738fc3b1aa14deb7602421ff42d3889bd15d018ee2212373d38020161036e69630366726c00c2a9da57020162c02ab9184057020163c02ad412f857020164c02ad412f95703c0282001067c13cc0000000000000001008703c0382a042b0013cc0000000000000001008703c0412a042b0013ee0000000000000000008703c04a2a042b0013ff0000000000000000008701c02801c03801c04101c04a,
  0x01b2000000acc608022050f935219610318d526521f0e31c70705b462bde2c9fdba142969b27207b3b7f02026130036e69630766726f67616e73004116bc0102026132c02b4116bf0102026230c02b4116bd0102026330c02b4116be0103c0282a01884000b60000000000000000000103c03d2a01884000b90000000000000000000103c0472a01884000b70000000000000000000103c0512a01884000b80000000000000000000101c02801c03d01c04701c051,
  0x01b4000000330c0802208a99a7704133e3acbe5d9c4922f4a7bb4198af11d31ce37f218a5b14cf1f23970203616331056e73746c6403636f6d00c02aad1e0203616332c02cc02aae1e0203616333c02cc02aaf1e0203616334c02cc02ab01e03c0282001050001200000000000000000003003c03c2001050001210000000000000000003003c0472001050001220000000000000000003003c0522001050001230000000000000000003001c02801c03c01c04701c052,
  0x01f7000000c601080220b81514d86b0ae37d16a0676680b70b9c714036de9993afb8d38fdbc6879a0062020161036e69630866726f6e746965720025d1c009020162c02a25d1c209020163c02a25d1c40902036e733103646e73c02a9c9a904002036e7332c0539c9a914002036e7333c0539c9a9f4003c02820010dcd00010000000000000000000903c03d20010dcd00020000000000000000000903c04620010dcd00030000000000000000000903c04f261000a110710000000000000000004003c05e261000a110720000000000000000004003c069261000a110730000000000000000004001c02801c03d01c04601c04f01c05e01c069,
  0x01f2000000ac4808022042ecbfdd47bc85333fb13850757d18493116ecabdc33eb40ca70d7cb952d9d52020161036e6963036674720025d1c009020162c02a25d1c209020163c02a25d1c40902036e733103646e73c02a9c9a904102036e7332c04e9c9a914102036e7333c04e9c9a9f4103c02820010dcd00010000000000000000000903c03820010dcd00020000000000000000000903c04120010dcd00030000000000000000000903c04a261000a110710000000000000000004103c059261000a110720000000000000000004103c064261000a110730000000000000000004101c02801c03801c04101c04a01c05901c064,
  0x019f00000096d4080220b04465dafdf63b8c89ef0baefd4c6e602c6ac778794f8f196941169ba669db4b0201610b676d6f7265676973747279036e65740025d1c004020162c02a25d1c20402016bc02a25d1c40402016cc02a25d1c60403c02820010dcd00010000000000000000000403c04020010dcd00020000000000000000000403c05220010dcd00040000000000000000000401c02801c04001c04901c052,
  0x01c400000011f2080114e256d68d24212dd3355f3ae897504e47f847579c0011f208022058d070a391a5808da071de7234c293b2a4a32006f1ff152ccac45e2ee66c3891020161036e69630366756e00c2a9da48020162c044b9184048020165c044d412f848020166c044d412f94803c0422001067c13cc0000000000000001007203c0522a042b0013cc0000000000000001007203c05b2a042b0013ee0000000000000000007203c0642a042b0013ff0000000000000000007201c04201c05201c05b01c064,
  0x01fb000000e39e080220987cf39f13d83606711047d4d88b8283bd49bed69ba378b2106c7ed6b33d2527020476306e30036e69630466756e64004116142d020476306e31c02d4116152d020476306e32c02d4116162d020476306e33c02da1e80a2d020476326e30c02d4116172d020476326e31c02da1e80b2d03c0282a01884000160000000000000000004503c03c2a01884000170000000000000000004503c0482a01884000180000000000000000004503c0542a01884000f40000000000000000004503c0602a01884000190000000000000000004503c06c2a01884000f50000000000000000004501c02801c03c01c04801c05401c06001c06c,
  0x01000100000b05080220f50e41782d45c0c945289178e73f62d5c2fcb56cba05bdc5988ebb0d5d46f07b020476306e30036e6963096675726e6974757265004116203b020476306e31c02d4116213b020476306e32c02d4116223b020476306e33c02da1e8103b020476326e30c02d4116233b020476326e31c02da1e8113b03c0282a01884000220000000000000000005903c0412a01884000230000000000000000005903c04d2a01884000240000000000000000005903c0592a01884000fa0000000000000000005903c0652a01884000250000000000000000005903c0712a01884000fb0000000000000000005901c02801c04101c04d01c05901c06501c071,
  0x01fd000000de8b080220be9582ad283374f983057455cf2068505a0e6bd69ddd89ea2a3ea74f380e2ae1020476306e30036e696306667574626f6c0041161c3c020476306e31c02d41161d3c020476306e32c02d41161e3c020476306e33c02da1e80e3c020476326e30c02d41161f3c020476326e31c02da1e80f3c03c0282a018840001e0000000000000000006003c03e2a018840001f0000000000000000006003c04a2a01884000200000000000000000006003c0562a01884000f80000000000000000006003c0622a01884000210000000000000000006003c06e2a01884000f90000000000000000006001c02801c03e01c04a01c05601c06201c06e,
  0x01fa0000005f14080220853f208b5d528007d5b57bb498524364da3a2c43ad48444aae41d3afdb5b5aba020476306e30036e696303667969004116142a020476306e31c02d4116152a020476306e32c02d4116162a020476306e33c02da1e80a2a020476326e30c02d4116172a020476326e31c02da1e80b2a03c0282a01884000160000000000000000004203c03b2a01884000170000000000000000004203c0472a01884000180000000000000000004203c0532a01884000f40000000000000000004203c05f2a01884000190000000000000000004203c06b2a01884000f50000000000000000004201c02801c03b01c04701c05301c05f01c06b,
  0x01820000020161026e7302676100b915a831020162c004b915a931020163c004b915aa31020164c004b915ab3103c0022a041b00000c0000000000000000000103c0102a041b00000d0000000000000000000103c0192a041b00000e0000000000000000000103c0222a041b00000f0000000000000000000101c00201c01001c01901c022,
  0x01cd0000007ed50a022031d40665954899244190d71e2365cf3623a825580b9bf277953adef2599b49ab0208616e7963617374390769726f6e646e73036e657400c3fd400b0209616e79636173743130c031c3fd400c0209616e79636173743233c031c3fd410b0209616e79636173743234c031c3fd410c03c0282a0105b000040000000000000000000b03c0432a0105b000040000000000000000000c03c0542a0105b000050000000000000000000b03c0652a0105b000050000000000000000000c01c02801c04301c05401c065,
  0x01fe0000002d970802206d21a1e67d81b0c40c63c22650433bfbca5ec66657bca99c01849387563f7bfe020476306e30036e69630767616c6c6572790041161808020476306e31c02d41161908020476306e32c02d41161a08020476306e33c02da1e80c08020476326e30c02d41161b08020476326e31c02da1e80d0803c0282a018840001a0000000000000000000803c03f2a018840001b0000000000000000000803c04b2a018840001c0000000000000000000803c0572a01884000f60000000000000000000803c0632a018840001d0000000000000000000803c06f2a01884000f70000000000000000000801c02801c03f01c04b01c05701c06301c06f,
  0x01b400000071490802204c475ad8273c49cced3d8fbf45f02ba8e1a2759f816bf2020a544b49b9b04cf60203616331056e73746c6403636f6d00c02aad1e0203616332c02cc02aae1e0203616333c02cc02aaf1e0203616334c02cc02ab01e03c0282001050001200000000000000000003003c03c2001050001210000000000000000003003c0472001050001220000000000000000003003c0522001050001230000000000000000003001c02801c03c01c04701c052,
  0x01b1000000856f080220ae9bba11562a260aaa062e2eb9881443044fdb8998b6a81c25d34d0d6bf49cb502026130036e69630667616c6c7570004116a81102026132c02b4116ab1102026230c02b4116a91102026330c02b4116aa1103c0282a01884000a20000000000000000001703c03c2a01884000a50000000000000000001703c0462a01884000a30000000000000000001703c0502a01884000a40000000000000000001701c02801c03c01c04601c050,
  0x0145010000101e0501140bfd20235875e18ee7d8b0fad0a9f566d296cb0900101e050220f69be762d422754930ee00176f377ab6a7ff074a48b2076a6f0cee711d97001d0080a1050114ac35dd8c5c6e00427fce4432f9f817d54c5dbb9f0080a1050220c7602f661849ef5422cb5e5d7ccc91e7ea8344c7fd20f0e43a198cc699ec895c0098dd050114fb1f7e5d4d62aa9f930b77a9494bb3b04d84340a0098dd050220eca12999e650c648feabab0aa1870d10d6e9f6316fa609b126c98477f964c6a4020161036e69630467616d6500c2a9da93020162c0c4b9184093020163c0c4d412f893020164c0c4d412f99303c0c22001067c13cc0000000000000001014703c0d32a042b0013cc0000000000000001014703c0dc2a042b0013ee0000000000000000014703c0e52a042b0013ff0000000000000000014701c0c201c0d301c0dc01c0e5,
  0x01fc000000d48c080220a5cc38e38a2d92016aaac71830fb380afffb9137bc360f97dd576bd73f9d39f6020476306e30036e69630567616d65730041161427020476306e31c02d41161527020476306e32c02d41161627020476306e33c02da1e80a27020476326e30c02d41161727020476326e31c02da1e80b2703c0282a01884000160000000000000000003903c03d2a01884000170000000000000000003903c0492a01884000180000000000000000003903c0552a01884000f40000000000000000003903c0612a01884000190000000000000000003903c06d2a01884000f50000000000000000003901c02801c03d01c04901c05501c06101c06d,
  0x01f2000000116e08022059be1d87d0d5d5fd371368fa00c3e73b9e3215ed06cbec2459b8a25c49248b07020161036e6963036761700025d1c009020162c02a25d1c209020163c02a25d1c40902036e733103646e73c02a9c9a904202036e7332c04e9c9a914202036e7333c04e9c9a9f4203c02820010dcd00010000000000000000000903c03820010dcd00020000000000000000000903c04120010dcd00030000000000000000000903c04a261000a110710000000000000000004203c059261000a110720000000000000000004203c064261000a110730000000000000000004201c02801c03801c04101c04a01c05901c064,
  0x01eb000000c8c8080220a3f1a44a1d481d01241486e74820fc3634cb119c4772812ddf44e6d1cc5d2ebc020161036e69630667617264656e0025d1c00a020162c02a25d1c20a020163c02a25d1c40a020178c02a9c9aac52020179c02a9c9aad5202017ac02a9c9aae5203c02820010dcd00010000000000000000001003c03b20010dcd00020000000000000000001003c04420010dcd00030000000000000000001003c04d261000a110740000000000000001008203c056261000a110750000000000000001008203c05f261000a110760000000000000001008201c02801c03b01c04401c04d01c05601c05f,
  0x01e80000007d4a080220c725b3cbd9d404307d49d0969b57b8885fd69663aca51662b05716c9abd1361e020161036e6963036761790025d1c00a020162c02a25d1c20a020163c02a25d1c40a020178c02a9c9aac52020179c02a9c9aad5202017ac02a9c9aae5203c02820010dcd00010000000000000000001003c03820010dcd00020000000000000000001003c04120010dcd00030000000000000000001003c04a261000a110740000000000000001008203c053261000a110750000000000000001008203c05c261000a110760000000000000001008201c02801c03801c04101c04a01c05301c05c,
  0x0173000002026e73027575036e6574008927010302036e7330026a61c0088056011402c012c13f5e1402036e7334c016c13e9d4203c0122001063000000008000000000000001403c0122001063000000009000000000000001403c0272001063000000047000000000000004201c00201c01201c027,
  0x01fa000000441a080220ceddb0629de967eeceae6b9831ddcb0fd30ed800e46d6a69bf15759c2a239d9002076e732d746c643116636861726c6573746f6e726f6164726567697374727903636f6d00d8ef206902076e732d746c6432c030d8ef226902076e732d746c6433c030d8ef246902076e732d746c6434c030d8ef266902076e732d746c6435c030d8ef3c6903c0282001486048020032000000000000006903c0512001486048020034000000000000006903c0602001486048020036000000000000006903c06f2001486048020038000000000000006903c07e2001486048050000000000000000006901c02801c05101c06001c06f01c07e,
  0x01a9000000c75f070220bf36a1ec5d2998566123de660bbd857d1d25231729873e5f5399a641c1cec13f020161036e696302676400c2a9da58020162c02ab9184058020163c02ad412f858020164c02ad412f95803c0282001067c13cc0000000000000001008803c0372a042b0013cc0000000000000001008803c0402a042b0013ee0000000000000000008803c0492a042b0013ff0000000000000000008801c02801c03701c04001c049,
  0x019f00000062bc080114f04fcf71cc66f4662e234316f3b47e74e03aea1a0076630801147a16bf5938b9fe7cf2ac5be9c472e8144394468602036e7331036e69630367646e00c200191202036e7333c03ac2001a0b02036e7334c03ac200180b03c0362001067800200000000000000000001803c0482001067c10e00000000000000000001103c0532001067800240000000000000000001101c03601c04801c053,
  0x01890000020267650a686f73746d617374657202756100c32ffd1202026e73027575036e6574008927010302026e73036e696302676500d448820b02036e7332036e696302667200c05d000402036e7332c02cb913626203c0022001067c02580000000000000000001803c0392001066030050001000000000001000201c00201c01901c02901c03901c04a,
  0x018f000000eb1f08022062049b91e513b7230f960b356c6e70634af960efbfe5ddd4f33741a26b2583f002016103646e73036e69630367656100c200192102016dc02ac2001a0d02016ec02ac200180d03c0282001067800200000000000000000003303c03c2001067c10e00000000000000000001303c0452001067800240000000000000000001301c02801c03c01c045,
  0x01ab0000000a500d0220e97c1f6f53e1284399d6daaf670d8fcbddb5618710ade52c1219757c14c77d88020161036e69630467656e7400c2a9da59020162c02ab9184059020163c02ad412f859020164c02ad412f95903c0282001067c13cc0000000000000001008903c0392a042b0013cc0000000000000001008903c0422a042b0013ee0000000000000000008903c04b2a042b0013ff0000000000000000008901c02801c03901c04201c04b,
  0x01b4000000580b080220983fdbfbba09945a8da7feacb64460fa801f4a3481d83fa9e1257fc92ed206a30203616331056e73746c6403636f6d00c02aad1e0203616332c02cc02aae1e0203616333c02cc02aaf1e0203616334c02cc02ab01e03c0282001050001200000000000000000003003c03c2001050001210000000000000000003003c0472001050001220000000000000000003003c0522001050001230000000000000000003001c02801c03c01c04701c052,
  0x01b40000005ebf080220944d283dd22b4fec947c88d9c8369c75852a9b74a3a88a74756864de374496d40203616331056e73746c6403636f6d00c02aad1e0203616332c02cc02aae1e0203616333c02cc02aaf1e0203616334c02cc02ab01e03c0282001050001200000000000000000003003c03c2001050001210000000000000000003003c0472001050001220000000000000000003003c0522001050001230000000000000000003001c02801c03c01c04701c052,
  0x0141000002066e73312d6672096d6564696173657276036e657400b93833c202066e73312d6770c009d5bcac0102066e73312d6d71c009d510140301c00201c01d01c02b,
  0x0116010000136f0802206b95da44b57bf3bdfce8e9cf6d28df4b0ff999a374eff7909e095ab1c70006300201630a63692d73657276657273036f726700c2926a560201650a63692d73657276657273036e657400cc3dd84a0204646e73310a6e6f6d696e6574646e7302756b00d5f8dbfe0204646e7332c05b673153fe0204646e7333c05bd5f8dffe0204646e7334c05b2be633fe03c0282001067c10100022000000000000005303c03f200105000014607400ad00000000000103c0562a01061804030000000000000000025403c06f2401fd8004030000000000000000025403c07b2a01061804070000000000000000025403c0872401fd8004070000000000000000025401c02801c03f01c05601c06f01c07b01c087,
  0x019f000000025a0802200d54d07bebf1a6afe76ecf6d55c48698d8f233b719009329e4465b75078479d50201610b676d6f7265676973747279036e65740025d1c004020162c02a25d1c20402016bc02a25d1c40402016cc02a25d1c60403c02820010dcd00010000000000000000000403c04020010dcd00020000000000000000000403c05220010dcd00040000000000000000000401c02801c04001c04901c052,
  0x0149000002026e7303646e7302627200c8a0000502036e7331036e696302676800c5fd5ffb02036e7332c016c5fd7ffb03c002200112ff00000a20000000000000000501c00201c01201c023,
  0x0112010000848e0802203db5809de2e1052b00e010f54b404bd59cb5cba0c8306e1799623bda45a1cfb702026130056363746c640b6166696c6961732d6e737404696e666f00c7fe3b0102026132c02bc7f9740102026230056363746c640b6166696c6961732d6e7374036f726700c7fe3c0102026232c055c7f97c0102026330c02bc7fe3d0102026430c055c7fe3e0103c0282001050000250000000000000000000103c0482001050000440000000000000000000103c0522001050000260000000000000000000103c07120010500004c0000000000000000000103c07b2001050000270000000000000000000103c0852001050000280000000000000000000101c02801c04801c05201c07101c07b01c085,
  0x01b7000000b1c40d0220eea1dc9ae9e1bd91256962bfb0d639c8df881e8c56981b667fffc27daf293a6b02036e73310b756e697265676973747279036e6574004060010102036e73320b756e69726567697374727904696e666f004060020102036e7333c02cb99fc50302036e7334c046b99fc60303c0282620005740000001000000000000000103c05d2620010a80aa0000000000000000000303c0682620010a80ab0000000000000000000301c02801c04201c05d01c068,
  0x01fc000000809508022049d3abcfb00907eb5edf64455814d09ec2efa8d8959b1daa949c71a1d47e3de2020476306e30036e69630567696674730041162017020476306e31c02d41162117020476306e32c02d41162217020476306e33c02da1e81017020476326e30c02d41162317020476326e31c02da1e8111703c0282a01884000220000000000000000002303c03d2a01884000230000000000000000002303c0492a01884000240000000000000000002303c0552a01884000fa0000000000000000002303c0612a01884000250000000000000000002303c06d2a01884000fb0000000000000000002301c02801c03d01c04901c05501c06101c06d,
  0x01fc000000c946080220d1dd06d869102253fe38e8f665571b0f10a7f2c24ad4a92c10c47503919a6e1d020476306e30036e6963056769766573004116203d020476306e31c02d4116213d020476306e32c02d4116223d020476306e33c02da1e8103d020476326e30c02d4116233d020476326e31c02da1e8113d03c0282a01884000220000000000000000006103c03d2a01884000230000000000000000006103c0492a01884000240000000000000000006103c0552a01884000fa0000000000000000006103c0612a01884000250000000000000000006103c06d2a01884000fb0000000000000000006101c02801c03d01c04901c05501c06101c06d,
  0x01f1000000a44108022051655c1edba06b3c2329578ade539d446169f70f06adfd536c0ef7b315506a1f02026130036e696306676976696e6700c713380102026132c02bc7f9700102026230c02bc713360102026232c02bc7f9780102026330c02bc713350102026430c02bc713390103c02820010500000e0000000000000000000103c03c2001050000400000000000000000000103c04620010500000c0000000000000000000103c0502001050000480000000000000000000103c05a20010500000b0000000000000000000103c06420010500000f0000000000000000000101c02801c03c01c04601c05001c05a01c064,
  0x01880000002d280802203d44df84c78a82e0e9824440f3e82b402551341dbff3bce72cd786435d15f1aa020164036e696302676c00cc3dd83102036e73310a616e7963617374646e7302637a00b9266c6c02036e7332c03bb91cc2c203c028200105000014604900ad00000000000103c0372a00fea0dead0000000000000000beef01c02801c03701c04f,
  0x01fc000000ba19080220ba130708530e9f108aca4b16217084e861f151b4069e567c6e85193a457b219e020476306e30036e696305676c6173730041161839020476306e31c02d41161939020476306e32c02d41161a39020476306e33c02da1e80c39020476326e30c02d41161b39020476326e31c02da1e80d3903c0282a018840001a0000000000000000005703c03d2a018840001b0000000000000000005703c0492a018840001c0000000000000000005703c0552a01884000f60000000000000000005703c0612a018840001d0000000000000000005703c06d2a01884000f70000000000000000005701c02801c03d01c04901c05501c06101c06d,
  0x01fa0000008b19080220254367c4fa9fae6e0675ee721943c4cd97371553c9669e4bc424b00cff86e6aa02076e732d746c643116636861726c6573746f6e726f6164726567697374727903636f6d00d8ef206902076e732d746c6432c030d8ef226902076e732d746c6433c030d8ef246902076e732d746c6434c030d8ef266902076e732d746c6435c030d8ef3c6903c0282001486048020032000000000000006903c0512001486048020034000000000000006903c0602001486048020036000000000000006903c06f2001486048020038000000000000006903c07e2001486048050000000000000000006901c02801c05101c06001c06f01c07e,
  0x01b100000033040802205dd90e21ba23d0192e7f7148f56f7c20fe52b02074ac4baf8e611f1e6c7b878b02026130036e696306676c6f62616c004116500102026132c02b4116530102026230c02b4116510102026330c02b4116520103c0282a018840004e0000000000000000000103c03c2a01884000510000000000000000000103c0462a018840004f0000000000000000000103c0502a01884000500000000000000000000101c02801c03c01c04601c050,
  0x01e700000009a70d022047016576766a31841f591b328d8ea0ed33c9f057740d1a625c57a746eb67cd9802016103646e7302627200c8db940a020162c02ac8bd290a020163c02ac8c0e90a020164c02ac8db9a0a020165c02ac8e5f80a020166c02ac8db9f0a03c028200112f800060000000000000000001003c037200112f800080000000000000000001003c040200112f8000a0000000000000000001003c049200112f800040000000000000000001003c052200112f800020000000000000000001003c05b200112f8000c0000000000000000001001c02801c03701c04001c04901c05201c05b,
  0x0151000002036e7331036e696302676d00c23ffad902036e7332c006c431015702056e732d676d07616672696e6963036e657400c4d8a81d03c01e200143f801200000000000000000002901c00201c01301c01e,
  0x01fa0000009aed080220bffd3d45856e1cb03607f334362ce795e0c8f9f75b7010357699c72ff2dce64802076e732d746c643116636861726c6573746f6e726f6164726567697374727903636f6d00d8ef206902076e732d746c6432c030d8ef226902076e732d746c6433c030d8ef246902076e732d746c6434c030d8ef266902076e732d746c6435c030d8ef3c6903c0282001486048020032000000000000006903c0512001486048020034000000000000006903c0602001486048020036000000000000006903c06f2001486048020038000000000000006903c07e2001486048050000000000000000006901c02801c05101c06001c06f01c07e,
  0x01fb000000c70f080220aed172f485dbdef89fccca14b29463f53affc646105fe7c5ffccfbb43dc116f4020476306e30036e696304676d62680041162007020476306e31c02d41162107020476306e32c02d41162207020476306e33c02da1e81007020476326e30c02d41162307020476326e31c02da1e8110703c0282a01884000220000000000000000000703c03c2a01884000230000000000000000000703c0482a01884000240000000000000000000703c0542a01884000fa0000000000000000000703c0602a01884000250000000000000000000703c06c2a01884000fb0000000000000000000701c02801c03c01c04801c05401c06001c06c,
  0x019f000000acd5080220a4cd5d4fc4b18dc7162e94a9f9ac801ad4e67a5db3048691bee28e4f2cc7666b0201610b676d6f7265676973747279036e65740025d1c004020162c02a25d1c20402016bc02a25d1c40402016cc02a25d1c60403c02820010dcd00010000000000000000000403c04020010dcd00020000000000000000000403c05220010dcd00040000000000000000000401c02801c04001c04901c052,
  0x01cd000000c1810a0220ee15cf33c2e02f308291960df44a5a87e16c0535e34178528780a9a4f28a736f0208616e7963617374390769726f6e646e73036e657400c3fd400b0209616e79636173743130c031c3fd400c0209616e79636173743233c031c3fd410b0209616e79636173743234c031c3fd410c03c0282a0105b000040000000000000000000b03c0432a0105b000040000000000000000000c03c0542a0105b000050000000000000000000b03c0652a0105b000050000000000000000000c01c02801c04301c05401c065,
  0x01ab00000096560802204d9b33859b77bab1986ceaacc6e4a0534cdee69ac5e406c6d082c9314e0fce6602037269700370736703636f6d00931c00270204666f726b0373746807646e736e6f6465036e6574004d48e5fe02056e732d676e07616672696e6963c04bc4d8a83103c0282001041800010000000000000000003903c03a2a0103f000000306000000000000005303c055200143f801200000000000000000004901c02801c03a01c055,
  0x01ec00000072940802202c52023cffccd5fb2d7c4567840e0a06e2360b2a5090bc0ddd9e7b30cb4803b5020161036e696307676f64616464790025d1c009020162c02a25d1c209020163c02a25d1c409020178c02a9c9aac52020179c02a9c9aad5202017ac02a9c9aae5203c02820010dcd00010000000000000000000903c03c20010dcd00020000000000000000000903c04520010dcd00030000000000000000000903c04e261000a110740000000000000001008203c057261000a110750000000000000001008203c060261000a110760000000000000001008201c02801c03c01c04501c04e01c05701c060,
  0x01fb000000e6a1080220525579c6cd38e9e537598cec0953061fe404c9a7623efd9a871f46afa0e69e24020476306e30036e696304676f6c64004116140d020476306e31c02d4116150d020476306e32c02d4116160d020476306e33c02da1e80a0d020476326e30c02d4116170d020476326e31c02da1e80b0d03c0282a01884000160000000000000000001303c03c2a01884000170000000000000000001303c0482a01884000180000000000000000001303c0542a01884000f40000000000000000001303c0602a01884000190000000000000000001303c06c2a01884000f50000000000000000001301c02801c03c01c04801c05401c06001c06c]
def data5 : List Nat := [
  0x019f000000acde080220b83db888a853c9309a732e6ae3fdbb3ffaee325641b4f2f33ef6a4c468ac206c0201610b676d6f7265676973747279036e65740025d1c004020162c02a25d1c20402016bc02a25d1c40402016cc02a25d1c60403c02820010dcd00010000000000000000000403c04020010dcd00020000000000000000000403c05220010dcd00040000000000000000000401c02801c04001c04901c052,
  0x01fb00000028cc080220fff548bede169fe52de3106f856e5a31a0b349d1a54cbec3c2ff0bb837b29108020476306e30036e696304676f6c660041161c2e020476306e31c02d41161d2e020476306e32c02d41161e2e020476306e33c02da1e80e2e020476326e30c02d41161f2e020476326e31c02da1e80f2e03c0282a018840001e0000000000000000004603c03c2a018840001f0000000000000000004603c0482a01884000200000000000000000004603c0542a01884000f80000000000000000004603c0602a01884000210000000000000000004603c06c2a01884000f90000000000000000004601c02801c03c01c04801c05401c06001c06c,
  0x019f000000187a080220cdb2048d86d951bfc2320c25ec2211b19e22b00f8a1fbc6a6a7cbc9d5d9a99240201610b676d6f7265676973747279036e65740025d1c004020162c02a25d1c20402016bc02a25d1c40402016cc02a25d1c60403c02820010dcd00010000000000000000000403c04020010dcd00020000000000000000000403c05220010dcd00040000000000000000000401c02801c04001c04901c052,
  0x01b3000000a90c08022031677e86241af9fac9000ae3681f1054bb94fade26d91a92109547d4231a64bc02026130036e696308676f6f6479656172004116782902026132c02b41167b2902026230c02b4116792902026330c02b41167a2903c0282a01884000760000000000000000004103c03e2a01884000790000000000000000004103c0482a01884000770000000000000000004103c0522a01884000780000000000000000004101c02801c03e01c04801c052,
  0x01fa0000001f5d08022001509dc8d2d79e32f9a9c7f9845fdf26e4c4b7b2d6040e0d9381ebabe533180102076e732d746c643116636861726c6573746f6e726f6164726567697374727903636f6d00d8ef206902076e732d746c6432c030d8ef226902076e732d746c6433c030d8ef246902076e732d746c6434c030d8ef266902076e732d746c6435c030d8ef3c6903c0282001486048020032000000000000006903c0512001486048020034000000000000006903c0602001486048020036000000000000006903c06f2001486048020038000000000000006903c07e2001486048050000000000000000006901c02801c05101c06001c06f01c07e,
  0x01fa00000017ed08022080f8b78d23107153578bad3800e9543500474e5c30c29698b40a3db23ed9da9f02076e732d746c643116636861726c6573746f6e726f6164726567697374727903636f6d00d8ef206902076e732d746c6432c030d8ef226902076e732d746c6433c030d8ef246902076e732d746c6434c030d8ef266902076e732d746c6435c030d8ef3c6903c0282001486048020032000000000000006903c0512001486048020034000000000000006903c0602001486048020036000000000000006903c06f2001486048020038000000000000006903c07e2001486048050000000000000000006901c02801c05101c06001c06f01c07e,
  0x013e0100007b4a08022013454be0988354ae5cf482cc912c8d377e0d72abadd4a7c55e6dfc923e26868f0204646e7331036e696303676f7000d5f8d9270204646e7332c02d673151270204646e7333c02dd5f8dd270204646e7334c02d2be631270204646e7361c02d9c9a64030204646e7362c02d9c9a65030204646e7363c02d9c9a66030204646e7364c02d9c9a670303c0282a01061804010000000000000000003903c03b2401fd8004010000000000000000003903c0472a01061804050000000000000000003903c0532401fd8004050000000000000000003903c05f20010502ad090000000000000000000303c06b200105022eda0000000000000000000303c077261000a110090000000000000000000303c083261000a110100000000000000000000301c02801c03b01c04701c05301c05f01c06b01c07701c083,
  0x013e01000011030802208b11d5875a3202ed7faae05a5eab67057eca0d5bdb62875c5203b6cbb011c50a0204646e7331036e696303676f7400d5f8da440204646e7332c02d673152440204646e7333c02dd5f8de440204646e7334c02d2be632440204646e7361c02d9c9a64030204646e7362c02d9c9a65030204646e7363c02d9c9a66030204646e7364c02d9c9a670303c0282a01061804020000000000000000006803c03b2401fd8004020000000000000000006803c0472a01061804060000000000000000006803c0532401fd8004060000000000000000006803c05f20010502ad090000000000000000000303c06b200105022eda0000000000000000000303c077261000a110090000000000000000000303c083261000a110100000000000000000000301c02801c03b01c04701c05301c05f01c06b01c07701c083,
  0x01b20000001e120802206bc949e638442ead0bdaf0935763c8d003760384ff15ebbd5ce86bb5559561f00201610b676f762d73657276657273036e65740045249d1e020162c02ad1707b1e020163c02a4524991e020164c02a5113c21e03c0282001050044310000000000000002003003c0402620007400270000000000000002003003c0492620007400280000000000000002003003c0522620007400290000000000000002003001c02801c04001c04901c052,
  0x01ab0000020161066c6163746c64036f726700c800440a02026770056363746c640761757468646e730472697065036e657400c100094c02036e7331036e696302677000c1da720202036e7332c039c1da722202056e732d6770036e696302667200c200090103c00228010014a0000000000000000000001003c0152001067c00e00000000000000000007603c05120010678000c0000000000000000000101c00201c01501c03501c04601c051,
  0x01820000020161026e7302677100b915a841020162c004b915a941020163c004b915aa41020164c004b915ab4103c0022a041b0000100000000000000000000103c0102a041b0000110000000000000000000103c0192a041b0000120000000000000000000103c0222a041b0000130000000000000000000101c00201c01001c01901c022,
  0x01dc00000036a3080220ff87e9205f88e1d32c67a65bd61c68c56689c607d7684d12c867dc933d546ec8020467722d630369637305666f72746802677200c2000119020467722d64c02dc2000b66020467722d6dc02dc200040a02056573746961c02d8b5bbf03020567722d6174c02d4e6891e302056772646e73c02d8b5b010103c0282001067800040000000000000000001903c04020010678000e0102000000000000005303c04c2001067800070000000000000004001003c058200106482c300000000000000191000301c02801c04001c04c01c05801c06501c072,
  0x01f7000000f8380802209d220e1effe75aebee784d7066bd378773a55462c2da902458de3f80a8bd069e020161036e696308677261696e6765720025d1c009020162c02a25d1c209020163c02a25d1c40902036e733103646e73c02a9c9a904402036e7332c0539c9a914402036e7333c0539c9a9f4403c02820010dcd00010000000000000000000903c03d20010dcd00020000000000000000000903c04620010dcd00030000000000000000000903c04f261000a110710000000000000000004403c05e261000a110720000000000000000004403c069261000a110730000000000000000004401c02801c03d01c04601c04f01c05e01c069,
  0x01ff000000c5e008022072b3a23f71a09cdb43c5c5c1f9717de3c722a1efef355b11789661b46891f3af020476306e30036e69630867726170686963730041161c14020476306e31c02d41161d14020476306e32c02d41161e14020476306e33c02da1e80e14020476326e30c02d41161f14020476326e31c02da1e80f1403c0282a018840001e0000000000000000002003c0402a018840001f0000000000000000002003c04c2a01884000200000000000000000002003c0582a01884000f80000000000000000002003c0642a01884000210000000000000000002003c0702a01884000f90000000000000000002001c02801c04001c04c01c05801c06401c070,
  0x01fd0000007f72080220c0e0491f4fcebe153703e4abeb895cd8706902717053b2bc2dd1e421e5508bfb020476306e30036e6963066772617469730041161418020476306e31c02d41161518020476306e32c02d41161618020476306e33c02da1e80a18020476326e30c02d41161718020476326e31c02da1e80b1803c0282a01884000160000000000000000002403c03e2a01884000170000000000000000002403c04a2a01884000180000000000000000002403c0562a01884000f40000000000000000002403c0622a01884000190000000000000000002403c06e2a01884000f50000000000000000002401c02801c03e01c04a01c05601c06201c06e,
  0x01b0000000bf92080220b0a053bc2903459bd6dc6060a822285c492fbb5f20346821a48c5ef3e6b0d29a02026130036e696305677265656e004116200902026132c02b4116230902026230c02b4116210902026330c02b4116220903c0282a01884000220000000000000000000903c03b2a01884000250000000000000000000903c0452a01884000230000000000000000000903c04f2a01884000240000000000000000000901c02801c03b01c04501c04f,
  0x01fc000000b2c60802206816ae0472bb1ebb28d2f4434609ac9d178f7f82dbf92eceb11c658b50169415020476306e30036e69630567726970650041161821020476306e31c02d41161921020476306e32c02d41161a21020476306e33c02da1e80c21020476326e30c02d41161b21020476326e31c02da1e80d2103c0282a018840001a0000000000000000003303c03d2a018840001b0000000000000000003303c0492a018840001c0000000000000000003303c0552a01884000f60000000000000000003303c0612a018840001d0000000000000000003303c06d2a01884000f70000000000000000003301c02801c03d01c04901c05501c06101c06d,
  0x01b40000001527080220c723e260e44420eb0bef197e29f17f26ff4edda1d7e2f3c09dfaabbb2282bc860203616331056e73746c6403636f6d00c02aad1e0203616332c02cc02aae1e0203616333c02cc02aaf1e0203616334c02cc02ab01e03c0282001050001200000000000000000003003c03c2001050001210000000000000000003003c0472001050001220000000000000000003003c0522001050001230000000000000000003001c02801c03c01c04701c052,
  0x01fc000000f8c5080220efc04b30999b34c97394a6e337333b2c273a5cd765c6c83be8858fef57a5cca8020476306e30036e69630567726f75700041161402020476306e31c02d41161502020476306e32c02d41161602020476306e33c02da1e80a02020476326e30c02d41161702020476326e31c02da1e80b0203c0282a01884000160000000000000000000203c03d2a01884000170000000000000000000203c0492a01884000180000000000000000000203c0552a01884000f40000000000000000000203c0612a01884000190000000000000000000203c06d2a01884000f50000000000000000000201c02801c03d01c04901c05501c06101c06d,
  0x01910000005db60802202cbc82da27fdb16662bf359f59df1b63fa0ab720bfc2120f17ba369a3249fc5e02026e7307616e7963617374036e696302677300cc3dd81502036e73310a616e7963617374646e7302637a00b9266c6c02036e7332c044b91cc2c203c028200105000014602100ad00000000000103c0402a00fea0dead0000000000000000beef01c02801c04001c058,
  0x01f70000020161066c6163746c64036f726700c800440a020267740a616e7963617374646e7302637a00b91cc2c202c015b9266c6c02026e7303646e7302627200c8a00005020370636802677400cc3dd85f02056e732d637ac047c11dce0202097373646e732d746c64036e696302636c00c807050e03c00228010014a0000000000000000000001003c0152a00fea0dead0000000000000000beef03c033200112ff00000a20000000000000000503c043200105000014609500ad00000000000103c0502001067800010000000000000000000203c05d2001139802760000020000070005001401c00201c01501c03301c04301c05001c05d,
  0x0189000002026775056363746c640761757468646e730472697065036e657400c100094e0204676f6c6403756f670365647500a87bfa420205677265656ec027a87bfa38020670686c6f656d07756f7265676f6ec02b80df202303c0022001067c00e00000000000000000007803c042200104680d0100200000000080df202301c00201c02201c03501c042,
  0x01b4000000167708022011ecdf54b3e2e3e14ce6b189827eb40d28d743708b8d461d00074046bc4b552f0203616331056e73746c6403636f6d00c02aad1e0203616332c02cc02aae1e0203616333c02cc02aaf1e0203616334c02cc02ab01e03c0282001050001200000000000000000003003c03c2001050001210000000000000000003003c0472001050001220000000000000000003003c0522001050001230000000000000000003001c02801c03c01c04701c052,
  0x0140010000d66c080220e13f3a9ada4c86b25c68f8258d9922e8201fae2845d6300298555856a2e1c9380204646e7331036e696305677563636900d5f8db2b0204646e7332c02d6731532b0204646e7333c02dd5f8df2b0204646e7334c02d2be6332b0204646e7361c02d9c9a64030204646e7362c02d9c9a65030204646e7363c02d9c9a66030204646e7364c02d9c9a670303c0282a01061804030000000000000000004303c03d2401fd8004030000000000000000004303c0492a01061804070000000000000000004303c0552401fd8004070000000000000000004303c06120010502ad090000000000000000000303c06d200105022eda0000000000000000000303c079261000a110090000000000000000000303c085261000a110100000000000000000000301c02801c03d01c04901c05501c06101c06d01c07901c085,
  0x01fa000000298108022010c4028323a5529518c24d007431e7878192ced09c8ab2b6657adc624e8b8c1602076e732d746c643116636861726c6573746f6e726f6164726567697374727903636f6d00d8ef206902076e732d746c6432c030d8ef226902076e732d746c6433c030d8ef246902076e732d746c6434c030d8ef266902076e732d746c6435c030d8ef3c6903c0282001486048020032000000000000006903c0512001486048020034000000000000006903c0602001486048020036000000000000006903c06f2001486048020038000000000000006903c07e2001486048050000000000000000006901c02801c05101c06001c06f01c07e,
  0x01fc000000c15d080220835f5372b348a923b10bb048b56758380a24320c66e5cb828c5978dc79aa2f08020476306e30036e69630567756964650041161c0c020476306e31c02d41161d0c020476306e32c02d41161e0c020476306e33c02da1e80e0c020476326e30c02d41161f0c020476326e31c02da1e80f0c03c0282a018840001e0000000000000000001203c03d2a018840001f0000000000000000001203c0492a01884000200000000000000000001203c0552a01884000f80000000000000000001203c0612a01884000210000000000000000001203c06d2a01884000f90000000000000000001201c02801c03d01c04901c05501c06101c06d,
  0x0148010000037c050114e421d29a8d62e53665069dd9b99e04a86f4fe8e300037c050220aa980f135eb29c27887f8dfcdd0bab90dccf0740ef3f11fb3256b8a6a8c7fbf200437e050114c127e898212738f4a0723a1d4feb33b59b7ea71900437e050220e0afcc946458dcf20874905a1ed2626cfcea262016ae87bc53f8badfb0d497bb009a4e0501146186e2c33fb4719080be060e131e9339bf9cfa39009a4e050220742844ec01d87eceec0d34b7de1d39e376c697c73d36d90c9d5fad65625b624f020161036e6963076775697461727300c2a9da95020162c0c4b9184095020163c0c4d412f895020164c0c4d412f99503c0c22001067c13cc0000000000000001014903c0d62a042b0013cc0000000000000001014903c0df2a042b0013ee0000000000000000014903c0e82a042b0013ff0000000000000000014901c0c201c0d601c0df01c0e8,
  0x01fb0000008b510802203cc5e1cd14a0f2ded6856c1ec88785a7b9b36d6381263dabfa1ac1646848ce82020476306e30036e696304677572750041161c24020476306e31c02d41161d24020476306e32c02d41161e24020476306e33c02da1e80e24020476326e30c02d41161f24020476326e31c02da1e80f2403c0282a018840001e0000000000000000003603c03c2a018840001f0000000000000000003603c0482a01884000200000000000000000003603c0542a01884000f80000000000000000003603c0602a01884000210000000000000000003603c06c2a01884000f90000000000000000003601c02801c03c01c04801c05401c06001c06c,
  0x01900000007b1e0a0220cae77fe2299b3a08a4c78b400327c2a62bf65421d4bd98836228800c3b0722aa02016803646e7302707400c2926a8a020467773031c02ab927d013020467773033c02acc3dd87203c0282001067c10100035000000000000005303c0372a046d8000000000000000000000001903c043200105000014611400ad00000000000101c02801c03701c043,
  0x0182000000c6c50802206b06025eccb7efb21793e58afd2ce16d5949884f4ac352047daccd841627a3df020161066c6163746c64036f726700c800440a020567792d6e7307616e796361737403706368036e657400cc3dd82203c02828010014a0000000000000000000001003c03b200105000014603400ad00000000000101c02801c03b,
  0x01d100000075c608022050cca06c1ed8718a9398f347566c5fa6773222e7b3f152847292a5697cd8a7dd009944080220d8c88daa478496c4f99a8cb5cacb0746cdde2612e9668beb6f7d683ac220313b020161036e6963046861697200c2a9da75020162c050b9184075020163c050d412f875020164c050d412f97503c04e2001067c13cc0000000000000001011703c05f2a042b0013cc0000000000000001011703c0682a042b0013ee0000000000000000011703c0712a042b0013ff0000000000000000011701c04e01c05f01c06801c071,
  0x01b90000002f680802208bdc8642f1c0275904aea61c126d9d5a5db25881a564348af218eb4165bef7c5009bb1080220acadfbad24320a82cfad9dc5de24b5ef710fc0a9503f102596019b85ed1c74fa02016103646e73036e69630768616d6275726700c200191502016dc050c2001a0a02016ec050c200180a03c04e2001067800200000000000000000002103c0662001067c10e00000000000000000001003c06f2001067800240000000000000000001001c04e01c06601c06f,
  0x01fa00000032b9080220007ecbfbf4e92e7ffac278e5830d4fbf869c2eb5a1abe1494463649a279fef9b02076e732d746c643116636861726c6573746f6e726f6164726567697374727903636f6d00d8ef206902076e732d746c6432c030d8ef226902076e732d746c6433c030d8ef246902076e732d746c6434c030d8ef266902076e732d746c6435c030d8ef3c6903c0282001486048020032000000000000006903c0512001486048020034000000000000006903c0602001486048020036000000000000006903c06f2001486048020038000000000000006903c07e2001486048050000000000000000006901c02801c05101c06001c06f01c07e,
  0x01fb0000008107080220685029345e53264730379b0e27c87de10ed93b0075f543d5887126e3dbfb7b84020476306e30036e696304686175730041161814020476306e31c02d41161914020476306e32c02d41161a14020476306e33c02da1e80c14020476326e30c02d41161b14020476326e31c02da1e80d1403c0282a018840001a0000000000000000002003c03c2a018840001b0000000000000000002003c0482a018840001c0000000000000000002003c0542a01884000f60000000000000000002003c0602a018840001d0000000000000000002003c06c2a01884000f70000000000000000002001c02801c03c01c04801c05401c06001c06c,
  0x01f2000000597a0802205989d419f8a7d34910c197b7d3701b97ba5505b53f505e885ec1e33c006fe8c2020161036e69630368626f0025d1c009020162c02a25d1c209020163c02a25d1c40902036e733103646e73c02a9c9a904602036e7332c04e9c9a914602036e7333c04e9c9a9f4603c02820010dcd00010000000000000000000903c03820010dcd00020000000000000000000903c04120010dcd00030000000000000000000903c04a261000a110710000000000000000004603c059261000a110720000000000000000004603c064261000a110730000000000000000004601c02801c03801c04101c04a01c05901c064,
  0x01af0000005a52080220f73544d186ef971c4e3172eddd985d4579c4bb60b5d04396921d25ff9095dc6a02026130036e69630468646663004116b02102026132c02b4116b32102026230c02b4116b12102026330c02b4116b22103c0282a01884000aa0000000000000000003303c03a2a01884000ad0000000000000000003303c0442a01884000ab0000000000000000003303c04e2a01884000ac0000000000000000003301c02801c03a01c04401c04e,
  0x01b3000000f9c1080220b8f2ca908cc4e3526a25ad74da7f2d9962b4a1692805ae8f5c0cef554274502902026130036e6963086864666362616e6b004116b42102026132c02b4116b72102026230c02b4116b52102026330c02b4116b62103c0282a01884000ae0000000000000000003303c03e2a01884000b10000000000000000003303c0482a01884000af0000000000000000003303c0522a01884000b00000000000000000003301c02801c03e01c04801c052,
  0x01f500000018850802204a5ecb53ae18b611b3345c9549e55e35944fee84f50bc150d8667cf1449dfd06020161036e6963066865616c74680025d1c00a020162c02a25d1c20a020163c02a25d1c40a02036e733103646e73c02a9c9a90f702036e7332c0519c9a91f702036e7333c0519c9a9ff703c02820010dcd00010000000000000000001003c03b20010dcd00020000000000000000001003c04420010dcd00030000000000000000001003c04d261000a11071000000000000000000f703c05c261000a11072000000000000000000f703c067261000a11073000000000000000000f701c02801c03b01c04401c04d01c05c01c067,
  0x01010100005fb6080220db68117556c537203b18d94be79836f65ecce06452c5658d16887ba2f0629c58020476306e30036e69630a6865616c7468636172650041161c0f020476306e31c02d41161d0f020476306e32c02d41161e0f020476306e33c02da1e80e0f020476326e30c02d41161f0f020476326e31c02da1e80f0f03c0282a018840001e0000000000000000001503c0422a018840001f0000000000000000001503c04e2a01884000200000000000000000001503c05a2a01884000f80000000000000000001503c0662a01884000210000000000000000001503c0722a01884000f90000000000000000001501c02801c04201c04e01c05a01c06601c072,
  0x01b7000000e36c0d0220631c51b43ba218603248e67a2c076c73acd16ad6eb0e4df9b3abd77d92643a9a02036e73310b756e697265676973747279036e6574004060010102036e73320b756e69726567697374727904696e666f004060020102036e7333c02cb99fc50302036e7334c046b99fc60303c0282620005740000001000000000000000103c05d2620010a80aa0000000000000000000303c0682620010a80ab0000000000000000000301c02801c04201c05d01c068,
  0x01b30000007b97080220069a71ef4b12265a44802fcf51b4531dc3835f8fbb68874fbf3565144a12770d02026130036e69630868656c73696e6b69004116dc2102026132c02b4116df2102026230c02b4116dd2102026330c02b4116de2103c0282a01884000d60000000000000000003303c03e2a01884000d90000000000000000003303c0482a01884000d70000000000000000003303c0522a01884000d80000000000000000003301c02801c03e01c04801c052,
  0x01fa0000007f48080220dc704ba2007a9f1f254659a40fc55762434b742f3919b6f31fdc53b8301657be02076e732d746c643116636861726c6573746f6e726f6164726567697374727903636f6d00d8ef206902076e732d746c6432c030d8ef226902076e732d746c6433c030d8ef246902076e732d746c6434c030d8ef266902076e732d746c6435c030d8ef3c6903c0282001486048020032000000000000006903c0512001486048020034000000000000006903c0602001486048020036000000000000006903c06f2001486048020038000000000000006903c07e2001486048050000000000000000006901c02801c05101c06001c06f01c07e,
  0x01b1000000432a080220f38ae5e161d402739020cc92a88dfa905a59972426ef42044c37ea6240bb961402026130036e6963066865726d6573004116e81902026132c02b4116eb1902026230c02b4116e91902026330c02b4116ea1903c0282a01884000e20000000000000000002503c03c2a01884000e50000000000000000002503c0462a01884000e30000000000000000002503c0502a01884000e40000000000000000002501c02801c03c01c04601c050,
  0x01b4000000347708022064a061f8727efeb4c9ec130f93cc23bec1b9a6a6e67eeb162820ac267f83cd530203616331056e73746c6403636f6d00c02aad1e0203616332c02cc02aae1e0203616333c02cc02aaf1e0203616334c02cc02ab01e03c0282001050001200000000000000000003003c03c2001050001210000000000000000003003c0472001050001220000000000000000003003c0522001050001230000000000000000003001c02801c03c01c04701c052,
  0x01b70000001df40d0220de0bde4365798b5080d31d7a5a8e7182d4924938761bfd506af371ea5cb36ab002036e73310b756e697265676973747279036e6574004060010102036e73320b756e69726567697374727904696e666f004060020102036e7333c02cb99fc50302036e7334c046b99fc60303c0282620005740000001000000000000000103c05d2620010a80aa0000000000000000000303c0682620010a80ab0000000000000000000301c02801c04201c05d01c068,
  0x019f000000769c08022002836f0e9fdb7e3ca5983577ccfed953698bd173d92a2e65650f73f14c39ac8d0201610b676d6f7265676973747279036e65740025d1c004020162c02a25d1c20402016bc02a25d1c40402016cc02a25d1c60403c02820010dcd00010000000000000000000403c04020010dcd00020000000000000000000403c05220010dcd00040000000000000000000401c02801c04001c04901c052,
  0x019f00000038bd08022003ea91ac19aeb9ffa37874a5f0f27f2a04c6eeae162fd7d9c87f083447d31e5f0201610b676d6f7265676973747279036e65740025d1c004020162c02a25d1c20402016bc02a25d1c40402016cc02a25d1c60403c02820010dcd00010000000000000000000403c04020010dcd00020000000000000000000403c05220010dcd00040000000000000000000401c02801c04001c04901c052,
  0x01b7000000c6f90d0220139053a1dd36c05b171d5adb695cedcd3db6eea7b7a2b0700aadc4c8712b134402036e73310b756e697265676973747279036e6574004060010102036e73320b756e69726567697374727904696e666f004060020102036e7333c02cb99fc50302036e7334c046b99fc60303c0282620005740000001000000000000000103c05d2620010a80aa0000000000000000000303c0682620010a80ab0000000000000000000301c02801c04201c05d01c068,
  0x012b010000035b08022047dc78a2f99d4702fca38efafbf8ade187b5cfda762494d59c9d8c55c533c8fe02016305686b697263036e657402686b00cb7702da020164c02acb7757da020174c02aca0c1f35020175c02ad2c98a3a020176c02acc3dd82e020178c02aca2dbc27020179c02a89bd061502017ac02ac2926a4603c02820010dca4000000000000000cb7702da03c03d20010dca2000000000000000cb7757da03c04620010dd800120000000000000000005303c04f2404000010a00000000000000000005803c058200105000014604600ad00000000000103c061240530010001003a000000000000002703c06a2405300000030006000000000000001503c0732001067c10100017000000000000005301c02801c03d01c04601c04f01c05801c06101c06a01c073,
  0x01ae000000081d080220b467734f0f2a8287ba3a0eddf252055d740f2fd0072f81095eb6a56be2405ee002026130036e696303686b74004116742102026132c02b4116772102026230c02b4116752102026330c02b4116762103c0282a01884000720000000000000000003303c0392a01884000750000000000000000003303c0432a01884000730000000000000000003303c04d2a01884000740000000000000000003301c02801c03901c04301c04d,
  0x0136000002036e733108726567697374727902686d00d0464f1902036e7332c006d0464f1802036e7333c00680c7b4bc01c00201c01801c023,
  0x01bf0000005077080220b7ca2a70dea7188cb7319a8049164ef9d0e3496d8fe4e3c135cba8452544ba72020161066c6163746c64036f726700c800440a02036e73310a616e7963617374646e7302637a00b9266c6c02036e7332c03fb91cc2c2020b7063682d616e796361737403726473036f726702686e00cc3dd84003c02828010014a0000000000000000000001003c03b2a00fea0dead0000000000000000beef03c05e200105000014606400ad00000000000101c02801c03b01c05301c05e,
  0x01fd00000042850802208bccb97086905ab56155084578e7873c77abce3210245d2503f59d42d94d8ce6020476306e30036e696306686f636b6579004116141f020476306e31c02d4116151f020476306e32c02d4116161f020476306e33c02da1e80a1f020476326e30c02d4116171f020476326e31c02da1e80b1f03c0282a01884000160000000000000000003103c03e2a01884000170000000000000000003103c04a2a01884000180000000000000000003103c0562a01884000f40000000000000000003103c0622a01884000190000000000000000003103c06e2a01884000f50000000000000000003101c02801c03e01c04a01c05601c06201c06e,
  0x01ff0000006334080220bd7d00cff174d8898dfd6b1174e027e8899b1aa029555d54574f6165135f45d4020476306e30036e696308686f6c64696e67730041161833020476306e31c02d41161933020476306e32c02d41161a33020476306e33c02da1e80c33020476326e30c02d41161b33020476326e31c02da1e80d3303c0282a018840001a0000000000000000005103c0402a018840001b0000000000000000005103c04c2a018840001c0000000000000000005103c0582a01884000f60000000000000000005103c0642a018840001d0000000000000000005103c0702a01884000f70000000000000000005101c02801c04001c04c01c05801c06401c070,
  0x01fe000000f11508022034267e711a8fc7a8bb25ee22e87508951cafad73f29d332cddeb3190bb9982f9020476306e30036e696307686f6c696461790041161818020476306e31c02d41161918020476306e32c02d41161a18020476306e33c02da1e80c18020476326e30c02d41161b18020476326e31c02da1e80d1803c0282a018840001a0000000000000000002403c03f2a018840001b0000000000000000002403c04b2a018840001c0000000000000000002403c0572a01884000f60000000000000000002403c0632a018840001d0000000000000000002403c06f2a01884000f70000000000000000002401c02801c03f01c04b01c05701c06301c06f,
  0x01b4000000a150080220547d577cb0c59bc0fdca6d4a26ab5fa73588f9f7ba554a6adfff6b31ba056e4502026130036e696309686f6d656465706f74004116c00102026132c02b4116c30102026230c02b4116c10102026330c02b4116c20103c0282a01884000ba0000000000000000000103c03f2a01884000bd0000000000000000000103c0492a01884000bb0000000000000000000103c0532a01884000bc0000000000000000000101c02801c03f01c04901c053,
  0x01f8000000213d080220ff29069ba0204e904c1ba9407d98664383c7c9d65f4d33008a13042b497c93dd020161036e696309686f6d65676f6f64730025d1c009020162c02a25d1c209020163c02a25d1c40902036e733103646e73c02a9c9a904902036e7332c0549c9a914902036e7333c0549c9a9f4903c02820010dcd00010000000000000000000903c03e20010dcd00020000000000000000000903c04720010dcd00030000000000000000000903c050261000a110710000000000000000004903c05f261000a110720000000000000000004903c06a261000a110730000000000000000004901c02801c03e01c04701c05001c05f01c06a,
  0x01d200000081ee080220d9f3c8d72738eba7ed5002404c5e2748e1aa47c83e36d33d2d4eb72360e49d8000af4b080220de0934d0c6c5221ba3533739b3147e327a87f8e97db379136a9343aa9d330079020161036e696305686f6d657300c2a9da84020162c050b9184084020163c050d412f884020164c050d412f98403c04e2001067c13cc0000000000000001013203c0602a042b0013cc0000000000000001013203c0692a042b0013ee0000000000000000013203c0722a042b0013ff0000000000000000013201c04e01c06001c06901c072,
  0x01f80000003c1308022078ddb12e13aa6279d368770b09fcacb19f09c88e369372e5b77a294cee3b21e0020161036e696309686f6d6573656e73650025d1c009020162c02a25d1c209020163c02a25d1c40902036e733103646e73c02a9c9a904a02036e7332c0549c9a914a02036e7333c0549c9a9f4a03c02820010dcd00010000000000000000000903c03e20010dcd00020000000000000000000903c04720010dcd00030000000000000000000903c050261000a110710000000000000000004a03c05f261000a110720000000000000000004a03c06a261000a110730000000000000000004a01c02801c03e01c04701c05001c05f01c06a,
  0x019f00000064900802204214b1e2ffb881035440b32cb3c90675e1051a23ab5424fc07111eb9176433380201610b676d6f7265676973747279036e65740025d1c004020162c02a25d1c20402016bc02a25d1c40402016cc02a25d1c60403c02820010dcd00010000000000000000000403c04020010dcd00020000000000000000000403c05220010dcd00040000000000000000000401c02801c04001c04901c052,
  0x01ea000000c0b20802206566edc407480e5f0f3d1f31e436bb5321d557e5805704868fca3a59e6042d38020161036e696305686f7273650025d1c00a020162c02a25d1c20a020163c02a25d1c40a020178c02a9c9aac52020179c02a9c9aad5202017ac02a9c9aae5203c02820010dcd00010000000000000000001003c03a20010dcd00020000000000000000001003c04320010dcd00030000000000000000001003c04c261000a110740000000000000001008203c055261000a110750000000000000001008203c05e261000a110760000000000000001008201c02801c03a01c04301c04c01c05501c05e,
  0x01ff000000d17d0802205ce9ea127a6a20ba0171a93b41716dc419367affe7b5d9445ceb1c4c3a8252bf020476306e30036e696308686f73706974616c004116141d020476306e31c02d4116151d020476306e32c02d4116161d020476306e33c02da1e80a1d020476326e30c02d4116171d020476326e31c02da1e80b1d03c0282a01884000160000000000000000002903c0402a01884000170000000000000000002903c04c2a01884000180000000000000000002903c0582a01884000f40000000000000000002903c0642a01884000190000000000000000002903c0702a01884000f50000000000000000002901c02801c04001c04c01c05801c06401c070,
  0x01c5000000eed608011486b9716c2e5daadc785ada27d4e8bfb190947d1400eed6080220d15742398f5291b0e2642bee5da6ed6ef3f4497c65bac0f5a6c9c8ff495cf286020161036e696304686f737400c2a9da35020162c044b9184035020165c044d412f835020166c044d412f93503c0422001067c13cc0000000000000001005303c0532a042b0013cc0000000000000001005303c05c2a042b0013ee0000000000000000005303c0652a042b0013ff0000000000000000005301c04201c05301c05c01c065,
  0x01480100006c670501149a72cab4a4cd51469dfc9e1dac8b1476d4b5c66c006c67050220cf9f7fa35f5dce998a5757081f6e790df501f8b8fb58d0f9d8c4c645761a39db00b74f050114017305d89ee86615e38b0ed31f5eed0a797e815600b74f05022074803c2bbeebc8d188832c4054b3fd230f31f593e3f5432f7fbcd860e3cb7ed500c958050114eb0e1f6128e4b7ed6c0c0560f9a3ebc8e5100c3300c9580502208fe6bf96895d8504f0989c4dbc3741df17b7672d5aa64107bd624089b5d3d403020161036e696307686f7374696e6700c2a9da98020162c0c4b9184098020163c0c4d412f898020164c0c4d412f99803c0c22001067c13cc0000000000000001015203c0d62a042b0013cc0000000000000001015203c0df2a042b0013ee0000000000000000015203c0e82a042b0013ff0000000000000000015201c0c201c0d601c0df01c0e8,
  0x013e010000bcc6080220fd4f66692c3a0784de4b089a4a2d499bd1366f63566860f6f80938d59e3a431b0204646e7331036e696303686f7400d5f8da450204646e7332c02d673152450204646e7333c02dd5f8de450204646e7334c02d2be632450204646e7361c02d9c9a64030204646e7362c02d9c9a65030204646e7363c02d9c9a66030204646e7364c02d9c9a670303c0282a01061804020000000000000000006903c03b2401fd8004020000000000000000006903c0472a01061804060000000000000000006903c0532401fd8004060000000000000000006903c05f20010502ad090000000000000000000303c06b200105022eda0000000000000000000303c077261000a110090000000000000000000303c083261000a110100000000000000000000301c02801c03b01c04701c05301c05f01c06b01c07701c083,
  0x01f60000006dd208022052a8400f66795f719794ef3426ac9ab0f53090c79ba13e695c13538a8d2192b1020161036e696307686f74656c65730025d1c00a020162c02a25d1c20a020163c02a25d1c40a02036e733103646e73c02a9c9aa90202036e7332c0529c9aaa0202036e7333c0529c9aab0203c02820010dcd00010000000000000000001003c03c20010dcd00020000000000000000001003c04520010dcd00030000000000000000001003c04e261000a110710000000000000001000203c05d261000a110720000000000000001000203c068261000a110730000000000000001000201c02801c03c01c04501c04e01c05d01c068,
  0x01f50000006a27080220400f3db76ff23fbe5fbd8faca3695871c6fc5ffa6cf116dea6fccc9e4711ea65020161036e696306686f74656c730025d1c00a020162c02a25d1c20a020163c02a25d1c40a02036e733103646e73c02a9c9aa90302036e7332c0519c9aaa0302036e7333c0519c9aab0303c02820010dcd00010000000000000000001003c03b20010dcd00020000000000000000001003c04420010dcd00030000000000000000001003c04d261000a110710000000000000001000303c05c261000a110720000000000000001000303c067261000a110730000000000000001000301c02801c03b01c04401c04d01c05c01c067,
  0x01b4000000324c0802205d35f9e8561ce9835fbdbcd44fd9f80c93d5412827694bd7b17bc1477a8e70ab0203616331056e73746c6403636f6d00c02aad1e0203616332c02cc02aae1e0203616333c02cc02aaf1e0203616334c02cc02ab01e03c0282001050001200000000000000000003003c03c2001050001210000000000000000003003c0472001050001220000000000000000003003c0522001050001230000000000000000003001c02801c03c01c04701c052,
  0x01fc0000003001080220083ba725024957730c4c92111205ff8f4f0d0b8e92e16ee24e80be98ceec39eb020476306e30036e696305686f7573650041161807020476306e31c02d41161907020476306e32c02d41161a07020476306e33c02da1e80c07020476326e30c02d41161b07020476326e31c02da1e80d0703c0282a018840001a0000000000000000000703c03d2a018840001b0000000000000000000703c0492a018840001c0000000000000000000703c0552a01884000f60000000000000000000703c0612a018840001d0000000000000000000703c06d2a01884000f70000000000000000000701c02801c03d01c04901c05501c06101c06d,
  0x01fa000000e4f1080220cf18dc0907a9d2f0d260c7c4a958ef62312bc64b2832002330a35dbc9ff5907502076e732d746c643116636861726c6573746f6e726f6164726567697374727903636f6d00d8ef206902076e732d746c6432c030d8ef226902076e732d746c6433c030d8ef246902076e732d746c6434c030d8ef266902076e732d746c6435c030d8ef3c6903c0282001486048020032000000000000006903c0512001486048020034000000000000006903c0602001486048020036000000000000006903c06f2001486048020038000000000000006903c07e2001486048050000000000000000006901c02801c05101c06001c06f01c07e,
  0x01b3000000f631080114d2e75cc74208f81b1ee50eff524259bda1f72ac100f6310802201493b6f67a78f844e72953b29b7fee9f6301f41e998bed94427c79a5ab60bae602016e03646e7302687200c2926a8e0203706368066361726e6574c048cc3dd85a020768722d6e732d31c055a135a06403c0422001067c10100036000000000000005303c051200105000014609000ad00000000000103c06320010b6800ff0001000000000000010001c04201c05101c063,
  0x01f3000000af2408022089f4241090c6c95e72420b8525e2f2472c6198937cac4d5ed6d1c6d2f4f6de27020161036e696304687362630025d1c009020162c02a25d1c209020163c02a25d1c40902036e733103646e73c02a9c9a904c02036e7332c04f9c9a914c02036e7333c04f9c9a9f4c03c02820010dcd00010000000000000000000903c03920010dcd00020000000000000000000903c04220010dcd00030000000000000000000903c04b261000a110710000000000000000004c03c05a261000a110720000000000000000004c03c065261000a110730000000000000000004c01c02801c03901c04201c04b01c05a01c065,
  0x0175000002036e7331036e696302687400c873b60b02036e733107706f6c796d746c0263610084cf060b02036e7333036e696302667200c08600310203706368c006cc3dd82603c0282001066030060001000000000001000103c039200105000014603800ad00000000000101c00201c01301c02801c039,
  0x0113010000083808022065f5d64b860f26feae0bde3ca51b730b38381678c8c316f16b37e551105ebac502016102687500051c0061020162c02ac1295212020163c02ac36f015c020164c02a051c0063020165c02ac200190b02036e7332036e696302667200c05d000402066e732d636f6d036e6963c02ac200010c03c0282a00e6a000031014000000000000009703c0332a0f7ec001000100000000000000005303c03c2001073800020002000000000000005303c0452a00e6a000031014000000000053009903c04e2001067800200000000000000000001103c0572001066030050001000000000001000203c0682001067800040000000000000000000c01c02801c03301c03c01c04501c04e01c05701c068,
  0x01b1000000fafc08022029a6ae50d287b301e6624077720bea37aa9cd752183dd014e7f3028cbcb740f202026130036e6963066875676865730041166c0102026132c02b41166f0102026230c02b41166d0102026330c02b41166e0103c0282a018840006a0000000000000000000103c03c2a018840006d0000000000000000000103c0462a018840006b0000000000000000000103c0502a018840006c0000000000000000000101c02801c03c01c04601c050,
  0x01f40000008824080220b21957ebb857e894b0fc407ac189cbab466804f560ad5815e9d1af829a566424020161036e69630568796174740025d1c009020162c02a25d1c209020163c02a25d1c40902036e733103646e73c02a9c9a904e02036e7332c0509c9a914e02036e7333c0509c9a9f4e03c02820010dcd00010000000000000000000903c03a20010dcd00020000000000000000000903c04320010dcd00030000000000000000000903c04c261000a110710000000000000000004e03c05b261000a110720000000000000000004e03c066261000a110730000000000000000004e01c02801c03a01c04301c04c01c05b01c066,
  0x019f000000bbdb080220d4178e0bd6ef00a383544da7d1856cb37034c64a64cf70d1e08d67bb9ee2e3b20201610b676d6f7265676973747279036e65740025d1c004020162c02a25d1c20402016bc02a25d1c40402016cc02a25d1c60403c02820010dcd00010000000000000000000403c04020010dcd00020000000000000000000403c05220010dcd00040000000000000000000401c02801c04001c04901c052,
  0x01e80000007b040802205e5ccd88746b4cdf018723a143ec14d9fb139f0009545ad21ca6aab2e1e914e2020161036e69630369626d0025d1c009020162c02a25d1c209020163c02a25d1c409020178c02a9c9aac52020179c02a9c9aad5202017ac02a9c9aae5203c02820010dcd00010000000000000000000903c03820010dcd00020000000000000000000903c04120010dcd00030000000000000000000903c04a261000a110740000000000000001008203c053261000a110750000000000000001008203c05c261000a110760000000000000001008201c02801c03801c04101c04a01c05301c05c,
  0x01d20000009e860802207b808042c4c053d9af8f39b7e784a66c00ce1d9eef0bc1dc6e5d59a4451da05a00cb9808022036fd8acb79ed5963abd523bb73b5c9fa39f8d206ed2488436d1795b1228766ee020161097a646e73636c6f756403636f6d00cb631801020162c050cb631901020163c050cb631a01020164c050cb631b01020166c050724310cc020167c0502a3e0210030169c05024018d0000010000000000000000000103016ac05024018d0000020000000000000000000101c04e01c06401c06d01c07601c07f01c08801c09101c0a6,
  0x01b4000000486608022078bb0d88d5f5d8d59c60bf7d062c87d5030d337c08ac0087071fe5cd709ed9ab0203616331056e73746c6403636f6d00c02aad1e0203616332c02cc02aae1e0203616333c02cc02aaf1e0203616334c02cc02ab01e03c0282001050001200000000000000000003003c03c2001050001210000000000000000003003c0472001050001220000000000000000003003c0522001050001230000000000000000003001c02801c03c01c04701c052,
  0x01040100007c12080114db42bc4b511c8f97e5a3c00666b76fb1f4c2e567007c12080220ccc397a837f6491166129e1d99ed03cca6635166b2f5b58c65b5cf516ae92b8f00f4f0080114d834ee1ed0374e28c49be9c12fe1b93ae0fe9ccb00f4f00802208c0442a126ba382ca5b05ae5b44744cdc5ab2845c83918e147083434f65790aa020161036e69630369637500c2a9da6c020162c084b918406c020163c084d412f86c020164c084d412f96c03c0822001067c13cc0000000000000001010803c0922a042b0013cc0000000000000001010803c09b2a042b0013ee0000000000000000010803c0a42a042b0013ff0000000000000000010801c08201c09201c09b01c0a4,
  0x01d3000000690708022028be22003a1afb1ed9a7bb82482274e2db5f09a6c50702c731e040d2257347ea02016203646e73026964006713b3b3020163c02a6713b2b2020164c02a2d7e3939020165c02a6713b1b102036e73340561706e6963036e657400ca0c1f3503c0282402ee80000b0000000000000000000b03c0372402ee80000c0000000000000000000c03c0402402ee80000d0000000000000000000d03c04920010df540000004000000000000000403c05220010dd800120000000000000000005301c02801c03701c04001c04901c052,
  0x01050100003ac00d0220966ec13e38ad71eb585fb1982308930d96cf88873a065188ac11c469435abd39020162026e73026965004d484822020163c02ac2926a62020164c02a4d48e5f5020165c02ab99fc7d2020167c02ac06f2764020168c02ac05d0004020169c02ac200192303c0282a0104b000000000000000000000000203c0362001067c10100025000000000000005303c03f2a0103f000000309000000000000005303c0482620010a80ac0000000000000000021003c051200107c80002000a000000000000006403c05a2001066030050001000000000001000203c0632001067800200000000000000000003501c02801c03601c03f01c04801c05101c05a01c063,
  0x0165010000411b080220babdaa67d51ee0c44ab2a25b88427f9bdac5bd271dcf6074684d0356de2469b6009b14080220f12a037a0d1108bdf15c5a58cc488efc19f3b9100c643c67181703e2747be9ab0204646e7331036e6963046965656500d5f8db7d0204646e7332c0536731537d0204646e7333c053d5f8df7d0204646e7334c0532be6337d0204646e7361c0539c9a64030204646e7362c0539c9a65030204646e7363c0539c9a66030204646e7364c0539c9a670303c04e2a01061804030000000000000000012503c0622401fd8004030000000000000000012503c06e2a01061804070000000000000000012503c07a2401fd8004070000000000000000012503c08620010502ad090000000000000000000303c092200105022eda0000000000000000000303c09e261000a110090000000000000000000303c0aa261000a110100000000000000000000301c04e01c06201c06e01c07a01c08601c09201c09e01c0aa,
  0x01cd00000004260a02209f27e38962fe2e8fea42e4ad88f1f90a5a23f6bdb4c8949af772c1430e0737450208616e7963617374390769726f6e646e73036e657400c3fd400b0209616e79636173743130c031c3fd400c0209616e79636173743233c031c3fd410b0209616e79636173743234c031c3fd410c03c0282a0105b000040000000000000000000b03c0432a0105b000040000000000000000000c03c0542a0105b000050000000000000000000b03c0652a0105b000050000000000000000000c01c02801c04301c05401c065,
  0x01b70000002dac080220e041cebaf350d90d1d6235ad11b5f2091c89b0a0b6799c56262f60bc9ce02c68009b89080220859dd28a91f4d364fd7a0feacb958a52ba6f211f4167d07ecf64e8beab9e49db02016103646e73036e696305696b616e6f00c200190c02016dc050c2001a0702016ec050c200180703c04e2001067800200000000000000000001203c0642001067c10e00000000000000000000703c06d2001067800240000000000000000000701c04e01c06401c06d,
  0x01fd0000004c8e0d02208e1ec01e24ae9345881ee1b60828e887106c83e8539dc540628dfe245feaae5002036e7331026e7302696c00c2926a7a02036e7333c02cc2000b6702036e7334c02ccc3dd88602036e7361c02cc073073502036e7362c02cc073073c02036e7365c02cc07304eb0204696c6e7304696c616e036e6574c02f808b230502066c6f6f6b75700469756363026163c02f808b22f003c0282001067c10100031000000000000005303c03820010678000e0103000000000000005303c043200105000014613400ad00000000000103c08420010bf80900000600000000808b22f001c02801c03801c04301c04e01c05901c06401c06f01c084,
  0x016e000002036e7334026a61036e657400c13e9d420205686f70707903696f6d03636f6d00d917a38c02066261726e65790661647673797302636f02756b00d917a0320207706562626c6573c01953da0e3503c0022001063000000047000000000000004201c00201c01301c02701c041,
  0x01b1000000c715080220a76c5431030fbef036b5008bc289a1614207d3447e7d8d565065f50ed9543e6a02026130036e696306696d616d61740041162c0902026132c02b41162f0902026230c02b41162d0902026330c02b41162e0903c0282a018840002a0000000000000000000903c03c2a018840002d0000000000000000000903c0462a018840002b0000000000000000000903c0502a018840002c0000000000000000000901c02801c03c01c04601c050,
  0x013f010000514f080220e3cc51fe5a9a31ae6fac92900038dca9b523511b22158a08d8093220af88e4d70204646e7331036e696304696d646200d5f8da320204646e7332c02d673152320204646e7333c02dd5f8de320204646e7334c02d2be632320204646e7361c02d9c9a64030204646e7362c02d9c9a65030204646e7363c02d9c9a66030204646e7364c02d9c9a670303c0282a01061804020000000000000000005003c03c2401fd8004020000000000000000005003c0482a01061804060000000000000000005003c0542401fd8004060000000000000000005003c06020010502ad090000000000000000000303c06c200105022eda0000000000000000000303c078261000a110090000000000000000000303c084261000a110100000000000000000000301c02801c03c01c04801c05401c06001c06c01c07801c084,
  0x01fb00000080bc08022087b32e0aac22fdd5bf233faca5edfd1307b914efecef3778d6644caa8037f707020476306e30036e696304696d6d6f0041161c2a020476306e31c02d41161d2a020476306e32c02d41161e2a020476306e33c02da1e80e2a020476326e30c02d41161f2a020476326e31c02da1e80f2a03c0282a018840001e0000000000000000004203c03c2a018840001f0000000000000000004203c0482a01884000200000000000000000004203c0542a01884000f80000000000000000004203c0602a01884000210000000000000000004203c06c2a01884000f90000000000000000004201c02801c03c01c04801c05401c06001c06c,
  0x01010100002d9108022011c89f087b187155d5736c648887b4f34348268895910f202aa61e5c19c5f7e3020476306e30036e69630a696d6d6f62696c69656e0041161813020476306e31c02d41161913020476306e32c02d41161a13020476306e33c02da1e80c13020476326e30c02d41161b13020476326e31c02da1e80d1303c0282a018840001a0000000000000000001903c0422a018840001b0000000000000000001903c04e2a018840001c0000000000000000001903c05a2a01884000f60000000000000000001903c0662a018840001d0000000000000000001903c0722a01884000f70000000000000000001901c02801c04201c04e01c05a01c06601c072,
  0x0112010000d5d30801142b5ca455a0e65769ff9df9e75ec40ee1ec1cdca900d5d30802209f122cfd6604ae6deda0fe09f27be340a318f06afac11714a73409d43136472c02036e733108726567697374727902696e0025d1c00c02036e7332c04625d1c20c02036e7333c04625d1c40c02036e7334c04625d1c60c02036e7335c0469c9a641402036e7336c0469c9a651403c04220010dcd00010000000000000000001203c05820010dcd00020000000000000000001203c06320010dcd00030000000000000000001203c06e20010dcd00040000000000000000001203c079200105022eda0000000000000000002003c08420010502ad090000000000000000002001c04201c05801c06301c06e01c07901c084,
  0x010401000035440801146eaebc6ddc7e32668027d425fe37084d6cb2d13d0035440802201f6e64cbe2f9ff7a4d33195d8ee394e09e58cb89477523a1b5b1113b0cd6c3f500469d080114b1d522ed8feeeaf6ead2504c9460101cfb98a19500469d08022042f81b888d9b44d561060b7dc32796807f2a99f2d151b3837019aba31c8966a0020161036e696303696e6300c2a9da89020162c084b9184089020163c084d412f889020164c084d412f98903c0822001067c13cc0000000000000001013703c0922a042b0013cc0000000000000001013703c09b2a042b0013ee0000000000000000013703c0a42a042b0013ff0000000000000000013701c08201c09201c09b01c0a4,
  0x010101000023fb0802208ab45e54723f63ce648e7a3679c9518e476afa4fd9a719c826378c5bc69f31e0020476306e30036e69630a696e64757374726965730041161437020476306e31c02d41161537020476306e32c02d41161637020476306e33c02da1e80a37020476326e30c02d41161737020476326e31c02da1e80b3703c0282a01884000160000000000000000005503c0422a01884000170000000000000000005503c04e2a01884000180000000000000000005503c05a2a01884000f40000000000000000005503c0662a01884000190000000000000000005503c0722a01884000f50000000000000000005501c02801c04201c04e01c05a01c06601c072,
  0x019f000000d3e10802204ba4a2e65269a0d1e93c17c160c744302700307d21c67889b9abac72644c52270201610b676d6f7265676973747279036e65740025d1c004020162c02a25d1c20402016bc02a25d1c40402016cc02a25d1c60403c02820010dcd00010000000000000000000403c04020010dcd00020000000000000000000403c05220010dcd00040000000000000000000401c02801c04001c04901c052,
  0x011001000013f00802201af7548a8d3e2950c20303757df9390c26cfa39e26c8b6a8f6c8b1e72dd8f7440202613004696e666f0b6166696c6961732d6e737404696e666f00c7fe1f0102026132c02bc7f971010202623004696e666f0b6166696c6961732d6e7374036f726700c7fe300102026232c054c7f9790102026330c02bc7fe310102026430c054c7fe320103c0282001050000190000000000000000000103c0472001050000410000000000000000000103c05120010500001a0000000000000000000103c06f2001050000490000000000000000000103c07920010500001b0000000000000000000103c08320010500001c0000000000000000000101c02801c04701c05101c06f01c07901c083,
  0x01fa0000006a78080220f7b48a11530565ead3cc6ccdcce9841b6a65a707ea8cc20a4d81f9aeb7656a9102076e732d746c643116636861726c6573746f6e726f6164726567697374727903636f6d00d8ef206902076e732d746c6432c030d8ef226902076e732d746c6433c030d8ef246902076e732d746c6434c030d8ef266902076e732d746c6435c030d8ef3c6903c0282001486048020032000000000000006903c0512001486048020034000000000000006903c0602001486048020036000000000000006903c06f2001486048020038000000000000006903c07e2001486048050000000000000000006901c02801c05101c06001c06f01c07e,
  0x01e8000000af09080220f3328d3a8a78e742e5d1e84c641f399e944d62a290651d21dffee632ab6ad01e020161036e696303696e6b0025d1c00a020162c02a25d1c20a020163c02a25d1c40a020178c02a9c9aac52020179c02a9c9aad5202017ac02a9c9aae5203c02820010dcd00010000000000000000001003c03820010dcd00020000000000000000001003c04120010dcd00030000000000000000001003c04a261000a110740000000000000001008203c053261000a110750000000000000001008203c05c261000a110760000000000000001008201c02801c03801c04101c04a01c05301c05c,
  0x0100010000b56f0802201068cbcef5b14e4b888a50b79e38b75630c1dda2067d1aa13640a6158e984c6c020476306e30036e696309696e73746974757465004116200d020476306e31c02d4116210d020476306e32c02d4116220d020476306e33c02da1e8100d020476326e30c02d4116230d020476326e31c02da1e8110d03c0282a01884000220000000000000000001303c0412a01884000230000000000000000001303c04d2a01884000240000000000000000001303c0592a01884000fa0000000000000000001303c0652a01884000250000000000000000001303c0712a01884000fb0000000000000000001301c02801c04101c04d01c05901c06501c071]
def data6 : List Nat := [
  0x01ee00000035e0080220ea492e4cf1888e2861f9fffaa38a66509c854db6aa41c4db1dfa611ae358b23f020164036e696309696e737572616e6365009c9a6716020165c02a9c9a6816020166c02a9c9a6916020177c02a25d1c00a020178c02a25d1c20a020179c02a25d1c40a03c028261000a110100000000000000000002203c03e261000a110110000000000000000002203c047261000a110120000000000000000002203c05020010dcd00010000000000000000001003c05920010dcd00020000000000000000001003c06220010dcd00030000000000000000001001c02801c03e01c04701c05001c05901c062,
  0x01fd000000d4c8080220fbe73379c21c9221115f502eae725983064c91d82af0c293a8c718ccbee36529020476306e30036e696306696e737572650041161835020476306e31c02d41161935020476306e32c02d41161a35020476306e33c02da1e80c35020476326e30c02d41161b35020476326e31c02da1e80d3503c0282a018840001a0000000000000000005303c03e2a018840001b0000000000000000005303c04a2a018840001c0000000000000000005303c0562a01884000f60000000000000000005303c0622a018840001d0000000000000000005303c06e2a01884000f70000000000000000005301c02801c03e01c04a01c05601c06201c06e,
  0x01110100006b290702205864812d4df2a4a455d905af311389f479afcd96fd369060941c7e170b40ca4f0201780c69616e612d73657276657273036e657400c72b8735020179c02ac72b853502017ac02ac72b863502026e73027575c0378927010302036e7330026a61c0378056011402c060c13f5e140204736563320761757468646e730472697065c037c100090403c02820010500008f0000000000000000005303c04120010500008d0000000000000000005303c04a20010500008e0000000000000000005303c0602001063000000008000000000000001403c0602001063000000009000000000000001403c0752001067c00e00000000000000000000401c02801c04101c04a01c05301c06001c075,
  0x0104010000713b080220947fd1dcd82105b572afdc6f9ba5c8f17f6d3a755f2be059cfc5c9044fa8bb10020476306e30036e69630d696e7465726e6174696f6e616c0041161c06020476306e31c02d41161d06020476306e32c02d41161e06020476306e33c02da1e80e06020476326e30c02d41161f06020476326e31c02da1e80f0603c0282a018840001e0000000000000000000603c0452a018840001f0000000000000000000603c0512a01884000200000000000000000000603c05d2a01884000f80000000000000000000603c0692a01884000210000000000000000000603c0752a01884000f90000000000000000000601c02801c04501c05101c05d01c06901c075,
  0x01fb00000022a50802201a86450877bf7cdcab1715f9b5206a668fd7e21c9d10119f3ce7e6d004287a5d02036e733103646e73036e696306696e74756974009c9a905202036e7332c02c9c9a915202036e7333c02c9c9a9f5202036e7334c02c9c9a9c5202036e7335c02c9c9a9d5202036e7336c02c9c9a9e5203c028261000a110710000000000000000005203c041261000a110720000000000000000005203c04c261000a110730000000000000000005203c057261000a110740000000000000000005203c062261000a110750000000000000000005203c06d261000a110760000000000000000005201c02801c04101c04c01c05701c06201c06d,
  0x0102010000db2b0802209a6df7804a869eeccb7d1c03f4acc62fee9c130250cf3479be1e9f3904a9e0dc020476306e30036e69630b696e766573746d656e74730041161c35020476306e31c02d41161d35020476306e32c02d41161e35020476306e33c02da1e80e35020476326e30c02d41161f35020476326e31c02da1e80f3503c0282a018840001e0000000000000000005303c0432a018840001f0000000000000000005303c04f2a01884000200000000000000000005303c05b2a01884000f80000000000000000005303c0672a01884000210000000000000000005303c0732a01884000f90000000000000000005301c02801c04301c04f01c05b01c06701c073,
  0x01ad000000e00b08022095a57c3bab7849dbcddf7c72ada71a88146b141110318ca5be672057e865c3e202026130036e696302696f004116a01102026132c02b4116a31102026230c02b4116a11102026330c02b4116a21103c0282a018840009e0000000000000000001703c0382a01884000a10000000000000000001703c0422a018840009f0000000000000000001703c04c2a01884000a00000000000000000001701c02801c03801c04201c04c,
  0x01fd000000fb77080220acf8a18748a01a0dfeea2a9078c2ca53721c508831b9c151db77ae434206553802036e733103646e73036e69630869706972616e6761009c9a905302036e7332c02c9c9a915302036e7333c02c9c9a9f5302036e7334c02c9c9a9c5302036e7335c02c9c9a9d5302036e7336c02c9c9a9e5303c028261000a110710000000000000000005303c043261000a110720000000000000000005303c04e261000a110730000000000000000005303c059261000a110740000000000000000005303c064261000a110750000000000000000005303c06f261000a110760000000000000000005301c02801c04301c04e01c05901c06401c06f,
  0x019c000002026971056363746c640761757468646e730472697065036e657400c100095102026e7305636f63636102667200b911ec5d02036e733103636d6302697100c2753964020b6e73702d616e7963617374c038c2753a2a03c0022001067c00e00000000000000000008103c0222a03dd4000030000000000000000009303c045200105000014800100ad00000000004201c00201c02201c03401c045,
  0x01820000020161036e696302697200c1bd7b02020162c004c1bd7a5302026972056363746c640761757468646e730472697065036e657400c100095502036e733506756e6976696502616302617400c1abff4d03c01a2001067c00e00000000000000000008503c03a2001062804534305000000000000005301c00201c01101c01a01c03a,
  0x01fc0000004771080220e438257880733ad6e7ebd5e4721f73470c93c55d57798e19dec38b9b1fe56813020476306e30036e6963056972697368004116201b020476306e31c02d4116211b020476306e32c02d4116221b020476306e33c02da1e8101b020476326e30c02d4116231b020476326e31c02da1e8111b03c0282a01884000220000000000000000002703c03d2a01884000230000000000000000002703c0492a01884000240000000000000000002703c0552a01884000fa0000000000000000002703c0612a01884000250000000000000000002703c06d2a01884000fb0000000000000000002701c02801c03d01c04901c05501c06101c06d,
  0x014501000000b3080220d45bb61d3bc69ef89b877439444854151b3ec3a2a9e3e740a3d89dbb5b5cd15b02036265730569736e696302697300cc3dd8740203736162c02cc2926a3a0203736574c02cc2001929020573756e69630573756e657402736500c0247d020206647572696e6e0572686e6574c03282d01014021168742d746c647365636f6e646172793031c02cb95d9c0a021174672d746c647365636f6e646172793031c02cb95d9c9a03c028200105000014611600ad00000000000103c03b2001067c10100014000000000000005303c0462001067800200000000000000000004103c051200106b000070000000000000000000203c0662a000c8800100016000000000000002003c07a2001067c006c0056000000000000001003c0932001067c006cf056000000000000015401c02801c03b01c04601c05101c06601c07a01c093,
  0x01b2000000c6bb08022099f076f1405b88aec44062cd7b8e9bf55d82130e00f55c92f6ba79f944980da802026130036e69630769736d61696c690041162c1902026132c02b41162f1902026230c02b41162d1902026330c02b41162e1903c0282a018840002a0000000000000000002503c03d2a018840002d0000000000000000002503c0472a018840002b0000000000000000002503c0512a018840002c0000000000000000002501c02801c03d01c04701c051,
  0x01ae00000008ad0802207f26778aff98dad019476832c62ce0399f247ba6f4f8e10bf26b8c80db6e30d902026130036e696303697374004116900102026132c02b4116930102026230c02b4116910102026330c02b4116920103c0282a018840008e0000000000000000000103c0392a01884000910000000000000000000103c0432a018840008f0000000000000000000103c04d2a01884000900000000000000000000101c02801c03901c04301c04d,
  0x01b3000000f0be0802203ebb91801cf0d1a67a84b4f1e265b248a3e3b0459c30d3631955e98a31a430d802026130036e696308697374616e62756c004116900902026132c02b4116930902026230c02b4116910902026330c02b4116920903c0282a018840008e0000000000000000000903c03e2a01884000910000000000000000000903c0482a018840008f0000000000000000000903c0522a01884000900000000000000000000901c02801c03e01c04801c052,
  0x01fa000000a3ad0a022047f7f7ba21e48591f6172eed13e35b66b93ad9f2880fc9bada64f68ce28ebb9002016103646e7302697400c20010d702016dc02ad91d4c04020172c02ac1ce8d2e020173c02ac2926a1e0203646e73036e6963c02ec00cc005020a6e616d6573657276657203636e72c02ec277c02203c0282001067800120000019400000016021503c03720011ac0000002000000a5d16004000203c04020010760ffffffff00000000000000ca03c0492001067c10100007000000000000005303c0522a000d4000010001000000000000000503c0612a00162000c00220019401190192003401c02801c03701c04001c04901c05201c061,
  0x01f90000007f720802204abe223f5ad4bdbd1c42de183c76722afeda52267f4166f23483204ad0ce4afb02036e733103646e73036e69630469746175009c9a905402036e7332c02c9c9a915402036e7333c02c9c9a9f5402036e7334c02c9c9a9c5402036e7335c02c9c9a9d5402036e7336c02c9c9a9e5403c028261000a110710000000000000000005403c03f261000a110720000000000000000005403c04a261000a110730000000000000000005403c055261000a110740000000000000000005403c060261000a110750000000000000000005403c06b261000a110760000000000000000005401c02801c03f01c04a01c05501c06001c06b,
  0x01ae000000b9c2080220b40bd9c46f4ea1a9a496c57c37a91938af59778971851d7d91c54dc203649c1302026130036e696303697476004116581902026132c02b41165b1902026230c02b4116591902026330c02b41165a1903c0282a01884000560000000000000000002503c0392a01884000590000000000000000002503c0432a01884000570000000000000000002503c04d2a01884000580000000000000000002501c02801c03901c04301c04d,
  0x01b4000000ae2d080220c10a4ae860ef080a1ea03cd4d2115a151a8aecb3b03c942626b5d6cfee336fa10203616331056e73746c6403636f6d00c02aad1e0203616332c02cc02aae1e0203616333c02cc02aaf1e0203616334c02cc02ab01e03c0282001050001200000000000000000003003c03c2001050001210000000000000000003003c0472001050001220000000000000000003003c0522001050001230000000000000000003001c02801c03c01c04701c052,
  0x01b4000000b22f0802207f20b5e00c2324d253f209b3f386f7033dae09ca9587524b3561f4cb4b3cd60d0203616331056e73746c6403636f6d00c02aad1e0203616332c02cc02aae1e0203616333c02cc02aaf1e0203616334c02cc02ab01e03c0282001050001200000000000000000003003c03c2001050001210000000000000000003003c0472001050001220000000000000000003003c0522001050001230000000000000000003001c02801c03c01c04701c052,
  0x019f0000001f67080220a21f8529ce9b38a28a4b03251ca112bf0528655d5cd28901b8585389de8261fd0201610b676d6f7265676973747279036e65740025d1c004020162c02a25d1c20402016bc02a25d1c40402016cc02a25d1c60403c02820010dcd00010000000000000000000403c04020010dcd00020000000000000000000403c05220010dcd00040000000000000000000401c02801c04001c04901c052,
  0x01160100004a6e080220051f21016e36c0dc46da9437c9f5975a95bf6b0b85e9e8bf53f49930eb65e90d0201630a63692d73657276657273036f726700c2926a560201650a63692d73657276657273036e657400cc3dd84a0204646e73310a6e6f6d696e6574646e7302756b00d5f8dbfe0204646e7332c05b673153fe0204646e7333c05bd5f8dffe0204646e7334c05b2be633fe03c0282001067c10100022000000000000005303c03f200105000014607400ad00000000000103c0562a01061804030000000000000000025403c06f2401fd8004030000000000000000025403c07b2a01061804070000000000000000025403c0872401fd8004070000000000000000025401c02801c03f01c05601c06f01c07b01c087,
  0x01af000000c34f080220f00a0b4b65adac570c2dbc81483367392ea9a86ffd17e4b3f042d446acd1ea4b02026130036e6963046a6565700041164c2902026132c02b41164f2902026230c02b41164d2902026330c02b41164e2903c0282a018840004a0000000000000000004103c03a2a018840004d0000000000000000004103c0442a018840004b0000000000000000004103c04e2a018840004c0000000000000000004101c02801c03a01c04401c04e,
  0x01fc00000086b0080220bdf6c4604d479d93bf6b0308835406829cab3dacd840365a854653f45336ea92020476306e30036e6963056a65747a740041161431020476306e31c02d41161531020476306e32c02d41161631020476306e33c02da1e80a31020476326e30c02d41161731020476326e31c02da1e80b3103c0282a01884000160000000000000000004903c03d2a01884000170000000000000000004903c0492a01884000180000000000000000004903c0552a01884000f40000000000000000004903c0612a01884000190000000000000000004903c06d2a01884000f50000000000000000004901c02801c03d01c04901c05501c06101c06d,
  0x01fe000000d9e1080220cf1e81d50a04c164391bc99065ec51d4e25ab77b740cc93f011ded2a151ad6d2020476306e30036e6963076a6577656c72790041161c1a020476306e31c02d41161d1a020476306e32c02d41161e1a020476306e33c02da1e80e1a020476326e30c02d41161f1a020476326e31c02da1e80f1a03c0282a018840001e0000000000000000002603c03f2a018840001f0000000000000000002603c04b2a01884000200000000000000000002603c0572a01884000f80000000000000000002603c0632a01884000210000000000000000002603c06f2a01884000f90000000000000000002601c02801c03f01c04b01c05701c06301c06f,
  0x01ae0000001564080220d03f2390954d50f114b39620e940a7de9d1fb60661cdeb43757b5d4a76fa818002026130036e6963036a696f004116d42102026132c02b4116d72102026230c02b4116d52102026330c02b4116d62103c0282a01884000ce0000000000000000003303c0392a01884000d10000000000000000003303c0432a01884000cf0000000000000000003303c04d2a01884000d00000000000000000003301c02801c03901c04301c04d,
  0x01ae00000087970802202684574b7ac4339237fa607c55c1244d45c6c7c86b143c9240a72c2f62a012e402026130036e6963036a6c6c004116940902026132c02b4116970902026230c02b4116950902026330c02b4116960903c0282a01884000920000000000000000000903c0392a01884000950000000000000000000903c0432a01884000930000000000000000000903c04d2a01884000940000000000000000000901c02801c03901c04301c04d,
  0x01ac000002026a6d056363746c640761757468646e730472697065036e657400c100095202026e73026a6d00c402010602026e730c75746563686a616d6169636103656475c025c809730202066e73332d6a6d0366736c036f7267c025c403bf42020670686c6f656d07756f7265676f6e036564750080df202303c0022001067c00e00000000000000000008203c05f200104680d0100200000000080df202301c00201c02201c02e01c04901c05f,
  0x01f200000075a008022047fcd5889323f70e3346b144d204ba05f601d6b6c56c8c52ac7606f7d14af60c020161036e6963036a6d700025d1c009020162c02a25d1c209020163c02a25d1c40902036e733103646e73c02a9c9a905802036e7332c04e9c9a915802036e7333c04e9c9a9f5803c02820010dcd00010000000000000000000903c03820010dcd00020000000000000000000903c04120010dcd00030000000000000000000903c04a261000a110710000000000000000005803c059261000a110720000000000000000005803c064261000a110730000000000000000005801c02801c03801c04101c04a01c05901c064,
  0x01f200000042010802208e9740b903122d7dfed99cf66764bbb9b24eabe8b5a3c37bd0d876f47d69956f020161036e6963036a6e6a0025d1c009020162c02a25d1c209020163c02a25d1c40902036e733103646e73c02a9c9a905902036e7332c04e9c9a915902036e7333c04e9c9a9f5903c02820010dcd00010000000000000000000903c03820010dcd00020000000000000000000903c04120010dcd00030000000000000000000903c04a261000a110710000000000000000005903c059261000a110720000000000000000005903c064261000a110730000000000000000005901c02801c03801c04101c04a01c05901c064,
  0x019c000002026a6f056363746c640761757468646e730472697065036e657400c100095302037269700370736703636f6d00931c00270204616d7261036e696303676f76026a6f00c1bc426702057065747261c039c1bc420202096a6f7264616e317374c039c1bc451303c0022001067c00e00000000000000000008303c0222001041800010000000000000000003901c00201c02201c03401c04a01c057,
  0x013f010000bb76080220813737ed8ea193eae37c0c2f95758a0de0b5069a20a9b0e8f4955908ac40c57a0204646e7331036e6963046a6f627300d5f8db780204646e7332c02d673153780204646e7333c02dd5f8df780204646e7334c02d2be633780204646e7361c02d9c9a64030204646e7362c02d9c9a65030204646e7363c02d9c9a66030204646e7364c02d9c9a670303c0282a01061804030000000000000000012003c03c2401fd8004030000000000000000012003c0482a01061804070000000000000000012003c0542401fd8004070000000000000000012003c06020010502ad090000000000000000000303c06c200105022eda0000000000000000000303c078261000a110090000000000000000000303c084261000a110100000000000000000000301c02801c03c01c04801c05401c06001c06c01c07801c084,
  0x017f000000fe080802204abf29a076fc19ac89283bed93457b56d2b0c8ad90dc24d70f70988a7d8bb57402036e7370066e65746e6f6402736500c23ac6210205636f7a613107646e736e6f6465036e657400c2926a4a03c0282a0103f130330000000000000000005303c03c2001067c10100018000000000000005301c02801c03c,
  0x013e010000ec09080220e6238d8e60f3d9967690f2d435f35503ca777fc828b7deba61a1e4cc7e97bfcc0204646e7331036e6963036a6f7400d5f8da460204646e7332c02d673152460204646e7333c02dd5f8de460204646e7334c02d2be632460204646e7361c02d9c9a64030204646e7362c02d9c9a65030204646e7363c02d9c9a66030204646e7364c02d9c9a670303c0282a01061804020000000000000000007003c03b2401fd8004020000000000000000007003c0472a01061804060000000000000000007003c0532401fd8004060000000000000000007003c05f20010502ad090000000000000000000303c06b200105022eda0000000000000000000303c077261000a110090000000000000000000303c083261000a110100000000000000000000301c02801c03b01c04701c05301c05f01c06b01c07701c083,
  0x013e01000083440802207dbdd304c79fbc1bc471a74b57d8dd1e286976e6203512356146df3af37ac9160204646e7331036e6963036a6f7900d5f8da470204646e7332c02d673152470204646e7333c02dd5f8de470204646e7334c02d2be632470204646e7361c02d9c9a64030204646e7362c02d9c9a65030204646e7363c02d9c9a66030204646e7364c02d9c9a670303c0282a01061804020000000000000000007103c03b2401fd8004020000000000000000007103c0472a01061804060000000000000000007103c0532401fd8004060000000000000000007103c05f20010502ad090000000000000000000303c06b200105022eda0000000000000000000303c077261000a110090000000000000000000303c083261000a110100000000000000000000301c02801c03b01c04701c05301c05f01c06b01c07701c083,
  0x01120100009bec080220b36b524989bf0625efd9b0877e74e77f052248fde965b6e3c327d9c06af1d08002016103646e73026a7000cb770101020162c02aca0c1e83020163c02a9c9a6405020164c02ad28aaff4020165c02ac0322b35020166c02a96640608020167c02acb772801020168c02aa1e8481903c02820010dc400000000000000000000000103c03720010dc200000000000000000000000103c04020010502ad090000000000000000000503c0492001024000000000000000000000005303c05220010200c0000000000000000000003503c05b200102f800000100000000000000015303c06d2a01884001bc0000000000000000002501c02801c03701c04001c04901c05201c05b01c06401c06d,
  0x01fd0000000e44080220ee3004dfa6162785f6c80c697e79d43f8fe436189a5cd880c971d4cc2870b13902036e733103646e73036e6963086a706d6f7267616e009c9a905c02036e7332c02c9c9a915c02036e7333c02c9c9a9f5c02036e7334c02c9c9a9c5c02036e7335c02c9c9a9d5c02036e7336c02c9c9a9e5c03c028261000a110710000000000000000005c03c043261000a110720000000000000000005c03c04e261000a110730000000000000000005c03c059261000a110740000000000000000005c03c064261000a110750000000000000000005c03c06f261000a110760000000000000000005c01c02801c04301c04e01c05901c06401c06f,
  0x01d9000000924408022077aa8b5ceda1af87b2b11b4549263b915d1a8b571838047eba7cbb9dca51f4ac0204746c6431036e6963046a70727300672f02010204746c6432c02d756885100204746c6433c02d411628010204746c6434c02d67c6d2010204746c6435c02d4116288103c02820010dda00000000000000000000000103c03c2001021830010000000000000000000103c0482a01884001ba0000000000000000000103c0542403288000000000000000000000000103c0602a01884001ba0000000000000000012901c02801c03c01c04801c05401c060,
  0x01b700000071b40d0220a05ce9ac7dd78b8c400aee67a0f85d3aa82b99c07745748021a53bc35e9fc0f302036e73310b756e697265676973747279036e6574004060010102036e73320b756e69726567697374727904696e666f004060020102036e7333c02cb99fc50302036e7334c046b99fc60303c0282620005740000001000000000000000103c05d2620010a80aa0000000000000000000303c0682620010a80ab0000000000000000000301c02801c04201c05d01c068,
  0x01b40000007680080220f122a759d3577fe831a8d3c16487273a2e515abc6d5297e78678ff8ece40141a0203616331056e73746c6403636f6d00c02aad1e0203616332c02cc02aae1e0203616333c02cc02aaf1e0203616334c02cc02ab01e03c0282001050001200000000000000000003003c03c2001050001210000000000000000003003c0472001050001220000000000000000003003c0522001050001230000000000000000003001c02801c03c01c04701c052,
  0x01fd00000054fd08022008a94d2a8c54c7b7cdef0b6ec1d550d04110d86b904aca22327458ae8b2f0e86020476306e30036e6963066b617566656e0041162014020476306e31c02d41162114020476306e32c02d41162214020476306e33c02da1e81014020476326e30c02d41162314020476326e31c02da1e8111403c0282a01884000220000000000000000002003c03e2a01884000230000000000000000002003c04a2a01884000240000000000000000002003c0562a01884000fa0000000000000000002003c0622a01884000250000000000000000002003c06e2a01884000fb0000000000000000002001c02801c03e01c04a01c05601c06201c06e,
  0x019f0000000856080220871a87191b82d082df95647615db803c3cf6e7b80578b018118c2dd27d7fa00b0201610b676d6f7265676973747279036e65740025d1c004020162c02a25d1c20402016bc02a25d1c40402016cc02a25d1c60403c02820010dcd00010000000000000000000403c04020010dcd00020000000000000000000403c05220010dcd00040000000000000000000401c02801c04001c04901c052,
  0x01e6000002026e7307616e7963617374056b656e6963026f72026b6500cc3dd80702056b656e69630a616e7963617374646e7302637a00b91cc2c202c01fb9266c6c02056d7a697a69c00dc401040302c040c401048202c040c620430902056e732d6b6507616672696e6963036e657400c4d8a81602056e73326b6503646e7308627573696e6573730093876aed03c002200105000014600700ad00000000000103c040200143f80010000050c0a8fffeee003003c05b200143f801200000000000000000002203c07326042dc0020002eb000000000000023701c00201c01f01c04001c05b01c073,
  0x01b400000038be0802206abf403b894d278ecbea2bb05a6d5f93cceff3c690f12e00050e8775007972080203616331056e73746c6403636f6d00c02aad1e0203616332c02cc02aae1e0203616333c02cc02aaf1e0203616334c02cc02ab01e03c0282001050001200000000000000000003003c03c2001050001210000000000000000003003c0472001050001220000000000000000003003c0522001050001230000000000000000003001c02801c03c01c04701c052,
  0x01b4000000c47d080220ef5f40becf3144b47429a1033e28b5140cfb0b65077fc25b251791eb6fa9bfa00203616331056e73746c6403636f6d00c02aad1e0203616332c02cc02aae1e0203616333c02cc02aaf1e0203616334c02cc02ab01e03c0282001050001200000000000000000003003c03c2001050001210000000000000000003003c0472001050001220000000000000000003003c0522001050001230000000000000000003001c02801c03c01c04701c052,
  0x01b40000000bf70802208dd03bb4024d3556271625130bf9c705c16fa0d91e5ec8233ea8c4dd48fc6b3f0203616331056e73746c6403636f6d00c02aad1e0203616332c02cc02aae1e0203616333c02cc02aaf1e0203616334c02cc02ab01e03c0282001050001200000000000000000003003c03c2001050001210000000000000000003003c0472001050001220000000000000000003003c0522001050001230000000000000000003001c02801c03c01c04701c052,
  0x01c4000000b7ac0801142ff9a7948808d902d399e6119e3734c64078ba7900b7ac080220602ee5eb852a6581e8cbdabe8d6685a881cc2783b4de8d8947393231243b80b2020161036e6963036b666800c2a9da2b020162c044b918402b020163c044d412f82b020164c044d412f92b03c0422001067c13cc0000000000000001004303c0522a042b0013cc0000000000000001004303c05b2a042b0013ee0000000000000000004303c0642a042b0013ff0000000000000000004301c04201c05201c05b01c064,
  0x01a0000000b39e080220d642af8c9bb761e035ce77a48750bbaa64b41cfa0799d8d94498cfa335fa138002026b67056363746c640761757468646e730472697065036e657400c100095402026e73026b6700c326a02402036e7332c04bc326a02603c0282001067c00e00000000000000000008403c0482a11a38000000000019500380160003603c0542a11a38000000000019500380160003801c02801c04801c054,
  0x0171000002026e730663616d6e657403636f6d026b6800cbdf200302036e733103646e73036e6574c010cbdf201502036e73340561706e6963036e657400ca0c1f350204646e7331066f6e6c696e65c00ccbbd800103c02c20010dd800120000000000000000005301c00201c01901c02c01c040,
  0x0176000000e894080220fd3b27e5c171b883fe2815dde7fbbe7f2e5af826bff47c33b5970f53e2a855de02026e7305636f63636102667200b911ec5d0203706368036e6963026b6900cc3dd81a03c0282a03dd4000030000000000000000009303c03a200105000014602600ad00000000000101c02801c03a,
  0x019f0000000893080220f0e9a6aaf2b84cdd23a98ec5926f0d9f921351207278b1d02ef80678954663770201610b676d6f7265676973747279036e65740025d1c004020162c02a25d1c20402016bc02a25d1c40402016cc02a25d1c60403c02820010dcd00010000000000000000000403c04020010dcd00020000000000000000000403c05220010dcd00040000000000000000000401c02801c04001c04901c052,
  0x01af0000002d100802200ade57b3836da5e4ce75aed8a7cd64b58e7d68a813d10cd94453d11f60a3ecee02026130036e6963046b696473004116ac1102026132c02b4116af1102026230c02b4116ad1102026330c02b4116ae1103c0282a01884000a60000000000000000001703c03a2a01884000a90000000000000000001703c0442a01884000a70000000000000000001703c04e2a01884000a80000000000000000001701c02801c03a01c04401c04e,
  0x01ae0000002ff5080220ba18a744991a561ab09a464ff96864573db04fd61a29e9d37f7551989e7e553502026130036e6963036b696d0041161c0102026132c02b41161f0102026230c02b41161d0102026330c02b41161e0103c0282a018840001e0000000000000000000103c0392a01884000210000000000000000000103c0432a018840001f0000000000000000000103c04d2a01884000200000000000000000000101c02801c03901c04301c04d,
  0x01f5000000a366080220d96f47fb6719215e954c07fa19ea3fa27b698f3cbfdfa8e55a05fd7d9a1cdb19020161036e6963066b696e6465720025d1c009020162c02a25d1c209020163c02a25d1c40902036e733103646e73c02a9c9a906002036e7332c0519c9a916002036e7333c0519c9a9f6003c02820010dcd00010000000000000000000903c03b20010dcd00020000000000000000000903c04420010dcd00030000000000000000000903c04d261000a110710000000000000000006003c05c261000a110720000000000000000006003c067261000a110730000000000000000006001c02801c03b01c04401c04d01c05c01c067,
  0x01410100007450080220bfd30bf5a3a6da5808bb6780e6cbec1cc929445af65e949b31a9e5bdc30030660204646e7331036e6963066b696e646c6500d5f8da3a0204646e7332c02d6731523a0204646e7333c02dd5f8de3a0204646e7334c02d2be6323a0204646e7361c02d9c9a64030204646e7362c02d9c9a65030204646e7363c02d9c9a66030204646e7364c02d9c9a670303c0282a01061804020000000000000000005803c03e2401fd8004020000000000000000005803c04a2a01061804060000000000000000005803c0562401fd8004060000000000000000005803c06220010502ad090000000000000000000303c06e200105022eda0000000000000000000303c07a261000a110090000000000000000000303c086261000a110100000000000000000000301c02801c03e01c04a01c05601c06201c06e01c07a01c086,
  0x01fe000000bb3f0802207f36f037e4bd2b909479811f3b3ad76c00db04f1f7f6476d00483d653b744ca4020476306e30036e6963076b69746368656e0041162011020476306e31c02d41162111020476306e32c02d41162211020476306e33c02da1e81011020476326e30c02d41162311020476326e31c02da1e8111103c0282a01884000220000000000000000001703c03f2a01884000230000000000000000001703c04b2a01884000240000000000000000001703c0572a01884000fa0000000000000000001703c0632a01884000250000000000000000001703c06f2a01884000fb0000000000000000001701c02801c03f01c04b01c05701c06301c06f,
  0x017000000075e808022072600ee2c5f82b9d0637cc4724b654d459051ca9b761380c126d926cb70a5002020161026e73036e6963046b69776900b99fc501020162c02ab99fc60103c0282620010a80aa0000000000000000000103c03c2620010a80ab0000000000000000000101c02801c03c,
  0x015300000204646e7331036e6963026b6d00c5ffe0120204646e7332c007c5ffe04202056e732d6b6d07616672696e6963036e657400c4d8a82e03c020200143f801200000000000000000004601c00201c01401c020,
  0x0164000002036e73310a616e7963617374646e7302637a00b9266c6c02036e7332c006b91cc2c20203706368036e6963026b6e00cc3dd86d03c0022a00fea0dead0000000000000000beef03c025200105000014610900ad00000000000101c00201c01a01c025,
  0x01a2000000bdb80a02200d64b2d9b1a06897bb24383f1200bca0e4f4307aa18a9dfaac28163111f95b440203646e7308727963652d72737003636f6d00c2000b7202036e733103646e7308627573696e657373009d5acd8a02036e7331c02cc138cc9903c02820010678000e0114000000000000005303c03f2a0104f802524295000000009d5acd8a03c0562a0c8f4000000701000000000000015301c02801c03f01c056,
  0x019f0000002b390802202bad7d0a51246fef1f7924da2d095396b030d518f3e6fb791299b4618ef8b2fc0201610b676d6f7265676973747279036e65740025d1c004020162c02a25d1c20402016bc02a25d1c40402016cc02a25d1c60403c02820010dcd00010000000000000000000403c04020010dcd00020000000000000000000403c05220010dcd00040000000000000000000401c02801c04001c04901c052,
  0x01b10000005faa080220c4a550145923c0f5ef17f8d247e1e1b1e11de20b1caf26605db23d4e6a5010a402026130036e6963066b6f73686572004116dc0102026132c02b4116df0102026230c02b4116dd0102026330c02b4116de0103c0282a01884000d60000000000000000000103c03c2a01884000d90000000000000000000103c0462a01884000d70000000000000000000103c0502a01884000d80000000000000000000101c02801c03c01c04601c050,
  0x0124000002036e7331046b707463026b7000af2db00f02036e7332c006af2db01001c00201c014,
  0x01f30000008a4f0802209faa34c98dc55567cdb910e3d068d6e6adc6646ae8e1085678d41498c0df9d42020161036e6963046b706d670025d1c009020162c02a25d1c209020163c02a25d1c40902036e733103646e73c02a9c9a906202036e7332c04f9c9a916202036e7333c04f9c9a9f6203c02820010dcd00010000000000000000000903c03920010dcd00020000000000000000000903c04220010dcd00030000000000000000000903c04b261000a110710000000000000000006203c05a261000a110720000000000000000006203c065261000a110730000000000000000006201c02801c03901c04201c04b01c05a01c065,
  0x01aa0000002743070220f265871198c769849f8acf952f01fcd412c9b3dc5dbf8fca98911d5052c0a240020161036e6963036b706e00c2a9da5a020162c02ab918405a020163c02ad412f85a020164c02ad412f95a03c0282001067c13cc0000000000000001009003c0382a042b0013cc0000000000000001009003c0412a042b0013ee0000000000000000009003c04a2a042b0013ff0000000000000000009001c02801c03801c04101c04a,
  0x01c1000000f0af080220ed570aadc88713ce2775fb8affb2ad782d056ea21d0677e147f2fb7bf54404da02016203646e73026b7200d2653c01020163c02ad2653d01020164c02acb539f01020165c02aca1e7c64020166c02ad2653e01020167c02aca1fbe0103c04020010dcc00040000000000000000000103c04920010dcc00050000000000000000010003c05220010dcc00060000000000000000000103c05b20010dc5000a0000000000000000000101c02801c03701c04001c04901c05201c05b,
  0x01e80000004000080220c87c87e976d19afd0cb934b7aac7f85bb0e327d4d63931604f7ff495d0bb1e61020161036e6963036b72640025d1c00a020162c02a25d1c20a020163c02a25d1c40a020178c02a9c9aac52020179c02a9c9aad5202017ac02a9c9aae5203c02820010dcd00010000000000000000001003c03820010dcd00020000000000000000001003c04120010dcd00030000000000000000001003c04a261000a110740000000000000001008203c053261000a110750000000000000001008203c05c261000a110760000000000000001008201c02801c03801c04101c04a01c05301c05c,
  0x01450100001cc6080114938e9ee09f411e400dd96657494c3fb5c90ee3b0001cc608022046bb5d35906260d79f26c5639b8a1fe47061c329973204d07222808035cd11bf002cd808011474e467bca5017fcd4f9f52618bba52baab535461002cd8080220a9c2ad21a0cafa1db04731ef4647140962c88a2da406c53e8a9d4b3cc46f7f9f00db7f080114ddff2dc997ddb6798552294536706d235395fe2400db7f080220e0ece602138ff1452f8f8d504eccab90404b9f010486f09d461c49fde6f3a30f020161036e6963046b72656400c2a9da4f020162c0c4b918404f020163c0c4d412f84f020164c0c4d412f94f03c0c22001067c13cc0000000000000001007903c0d32a042b0013cc0000000000000001007903c0dc2a042b0013ee0000000000000000007903c0e52a042b0013ff0000000000000000007901c0c201c0d301c0dc01c0e5,
  0x01b400000062a6080220ec38a05dde997f30bc85fa827bb716173599e89286ef5b2a8c03e23e3258f0280203616331056e73746c6403636f6d00c02aad1e0203616332c02cc02aae1e0203616333c02cc02aaf1e0203616334c02cc02ab01e03c0282001050001200000000000000000003003c03c2001050001210000000000000000003003c0472001050001220000000000000000003003c0522001050001230000000000000000003001c02801c03c01c04701c052,
  0x01a4000000d15f080220c5646a4e1bee8c2699d3cc3c4f597f8767b85a134fe5ee5dfe8b3d25b1534d3a020161036e6963026b770036e4d12e020162c02aa8bb6454020163c02ac23ac687020164c02ab92a89870203706368c02acc3dd87603c0402a0103f130328001000000000000013503c0492a0103f004008001000000000000013503c052200105000014611800ad00000000000101c02801c03701c04001c04901c052,
  0x01b700000097a50d02207fc55d2cabba85a2ca6831aca0565a64d7ad91e4861b114f317392b680dc6cbc02036e73310b756e697265676973747279036e6574004060010102036e73320b756e69726567697374727904696e666f004060020102036e7333c02cb99fc50302036e7334c046b99fc60303c0282620005740000001000000000000000103c05d2620010a80aa0000000000000000000303c0682620010a80ab0000000000000000000301c02801c04201c05d01c068,
  0x019f0000008f9f080220e5237b981fa00a1f097e791e68f746f2596b7b111f07a2f824c265f98ae5d8610201610b676d6f7265676973747279036e65740025d1c004020162c02a25d1c20402016bc02a25d1c40402016cc02a25d1c60403c02820010dcd00010000000000000000000403c04020010dcd00020000000000000000000403c05220010dcd00040000000000000000000401c02801c04001c04901c052,
  0x0148000002026e73036e6963026b7a00c200150502036e7331c005b94fd40703c0022001067800980001000000000000000503c0122a01764090000000000000000000000701c00201c012,
  0x01cb000000a7dd0701141f0cefa420e9101bb5791f3ab93e85917a72978b00a7dd070220e7d0c3bcdf60e8d842e882d90b4ec263c8889b760098492c798841c13b4ea13f02036e7331036e6963026c6100b918400f02036e7332c046c2a9da0e02036e7333c046b918400e02036e7334c046c2a9da0f03c0422a042b0013cc0000000000000001001503c0532001067c13cc0000000000000001001403c05e2a042b0013cc0000000000000001001403c0692001067c13cc0000000000000001001501c04201c05301c05e01c069,
  0x01cd0000008dd50a02201472bab3ddf6ca893b478bb871e9c9a21c0e01d468c9a9117771e29bcc93d1b90208616e7963617374390769726f6e646e73036e657400c3fd400b0209616e79636173743130c031c3fd400c0209616e79636173743233c031c3fd410b0209616e79636173743234c031c3fd410c03c0282a0105b000040000000000000000000b03c0432a0105b000040000000000000000000c03c0542a0105b000050000000000000000000b03c0652a0105b000050000000000000000000c01c02801c04301c05401c065,
  0x01b6000000efb0080220a10d1ea44cb7fb0a404807548f2cabd4def69b874ce31632c870e108c673cb0902026130036e69630b6c616d626f726768696e69004116d02102026132c02b4116d32102026230c02b4116d12102026330c02b4116d22103c0282a01884000ca0000000000000000003303c0412a01884000cd0000000000000000003303c04b2a01884000cb0000000000000000003303c0552a01884000cc0000000000000000003301c02801c04101c04b01c055,
  0x01b0000000e6d4080220f92e0e3f77b71fc4d1d69d18d013eedcef963c1c889b7dd1cfce17a7e4e5b1c802026130036e6963056c616d6572004116341902026132c02b4116371902026230c02b4116351902026330c02b4116361903c0282a01884000320000000000000000002503c03b2a01884000350000000000000000002503c0452a01884000330000000000000000002503c04f2a01884000340000000000000000002501c02801c03b01c04501c04f,
  0x018e000000f8a80d0220847b427327bf07fd61b821d3dc537401d3af0371c0771bebcaf2cdcf51aa108a020164036e696302667200c200090102016603657874c02ac2926a2e020167c039c200240103c02820010678000c0000000000000000000103c0372001067c10100011000000000000005303c04420010678004c0000000000000000000101c02801c03701c044,
  0x01b10000007372080220be7697ab47ace6c5d414f7a2d14ce1a0c4e4e2ac392fb9a31a6be506a3476a6702026130036e6963066c616e6369610041167c0902026132c02b41167f0902026230c02b41167d0902026330c02b41167e0903c0282a018840007a0000000000000000000903c03c2a018840007d0000000000000000000903c0462a018840007b0000000000000000000903c0502a018840007c0000000000000000000901c02801c03c01c04601c050,
  0x01fb00000019c30802207e0b97ba96c8437478bfb2da2f47c51cd530a254d8f9fd7612c30d5ce7fa2fc3020476306e30036e6963046c616e64004116140b020476306e31c02d4116150b020476306e32c02d4116160b020476306e33c02da1e80a0b020476326e30c02d4116170b020476326e31c02da1e80b0b03c0282a01884000160000000000000000001103c03c2a01884000170000000000000000001103c0482a01884000180000000000000000001103c0542a01884000f40000000000000000001103c0602a01884000190000000000000000001103c06c2a01884000f50000000000000000001101c02801c03c01c04801c05401c06001c06c,
  0x01b4000000c1e6080220eaa7250cefcdc81acb55b0e6ab33b7f82825c253691fb3d33c8c9109a87c60890203616331056e73746c6403636f6d00c02aad1e0203616332c02cc02aae1e0203616333c02cc02aaf1e0203616334c02cc02ab01e03c0282001050001200000000000000000003003c03c2001050001210000000000000000003003c0472001050001220000000000000000003003c0522001050001230000000000000000003001c02801c03c01c04701c052,
  0x01f60000006a54080220e7715a76b9ec7c6f1f6553100bc86f7c705078b27a8aeef20a3cee83a939069f020161036e6963076c616e786573730025d1c009020162c02a25d1c209020163c02a25d1c40902036e733103646e73c02a9c9a906502036e7332c0529c9a916502036e7333c0529c9a9f6503c02820010dcd00010000000000000000000903c03c20010dcd00020000000000000000000903c04520010dcd00030000000000000000000903c04e261000a110710000000000000000006503c05d261000a110720000000000000000006503c068261000a110730000000000000000006501c02801c03c01c04501c04e01c05d01c068,
  0x01b20000001828080220b7ceb81d5279786be446c8d6981f911d3cb31dfc7e192de510c6d489ca3ba37002026130036e6963076c6173616c6c65004116940102026132c02b4116970102026230c02b4116950102026330c02b4116960103c0282a01884000920000000000000000000103c03d2a01884000950000000000000000000103c0472a01884000930000000000000000000103c0512a01884000940000000000000000000101c02801c03d01c04701c051,
  0x01d000000003c1080220d87e3ee5babaa5dbf51c4af462d2670be2b702a2972903ae27bee9ba6441397300a618080220fae20127b971e74d949e113cd4d738f82d6d53c5091b76cda93a5877554df1f4020161036e6963036c617400c2a9da9c020162c050b918409c020163c050d412f89c020164c050d412f99c03c04e2001067c13cc0000000000000001015603c05e2a042b0013cc0000000000000001015603c0672a042b0013ee0000000000000000015603c0702a042b0013ff0000000000000000015601c04e01c05e01c06701c070,
  0x01b1000000709f08022038d9082c093d8c2e653b0c2bfa3eaa463fc401fe31ed28c62b0a2b506bcf9d2402026130036e6963066c6174696e6f0041165c1102026132c02b41165f1102026230c02b41165d1102026330c02b41165e1103c0282a018840005a0000000000000000001703c03c2a018840005d0000000000000000001703c0462a018840005b0000000000000000001703c0502a018840005c0000000000000000001701c02801c03c01c04601c050,
  0x01ec000000485808022080ad6c51aceb853c834a7170b91f67c61a23751918e2ff96dafa047f7fb7d57b020161036e6963076c6174726f62650025d1c009020162c02a25d1c209020163c02a25d1c409020178c02a9c9aac52020179c02a9c9aad5202017ac02a9c9aae5203c02820010dcd00010000000000000000000903c03c20010dcd00020000000000000000000903c04520010dcd00030000000000000000000903c04e261000a110740000000000000001008203c057261000a110750000000000000001008203c060261000a110760000000000000001008201c02801c03c01c04501c04e01c05701c060,
  0x01e80000004096080220ae36939d5f3629784f63c7cc2e5f7643efd9ef7533a5049420bd067f4eeab51c020161036e6963036c61770025d1c00a020162c02a25d1c20a020163c02a25d1c40a020178c02a9c9aac52020179c02a9c9aad5202017ac02a9c9aae5203c02820010dcd00010000000000000000001003c03820010dcd00020000000000000000001003c04120010dcd00030000000000000000001003c04a261000a110740000000000000001008203c053261000a110750000000000000001008203c05c261000a110760000000000000001008201c02801c03801c04101c04a01c05301c05c,
  0x01fd000000617808022007f6239a01f7cab022db3f5773ea1f03bcf6780e4f87de8afd4f93883d19ebf8020476306e30036e6963066c6177796572004116180e020476306e31c02d4116190e020476306e32c02d41161a0e020476306e33c02da1e80c0e020476326e30c02d41161b0e020476326e31c02da1e80d0e03c0282a018840001a0000000000000000001403c03e2a018840001b0000000000000000001403c04a2a018840001c0000000000000000001403c0562a01884000f60000000000000000001403c0622a018840001d0000000000000000001403c06e2a01884000f70000000000000000001401c02801c03e01c04a01c05601c06201c06e,
  0x013c0100000f02080220c838938c2127e3e10e15f92106ec565ef273b2ef7e3aeebe5a2162862fd3b46902026e6e07756e696e657474026e6f009e2600b502036e733309736561636f6d6e657403636f6d0029577efd02036e7334c04029577ffd020372697003707367c04a931c00270204666f726b0373746807646e736e6f6465036e6574004d48e5fe02056e732d6a70046c626472036f7267026c6200cbb28d4002057a65696e610361756203656475c098c1bc800e03c02820010700000005030000000000aa530203c03c2c0ffeb000000000000000000000000303c0542c0ffeb000000000000000000000000403c05f2001041800010000000000000000003903c06e2a0103f000000306000000000000005303c0892001020000000002000000000053000101c02801c03c01c05401c05f01c06e01c08901c0a1,
  0x01120100006da5080220a729b4e0d245d3cc81fc71893943df13f55c26d8415aa042c5adff42c76d25de02026130056363746c640b6166696c6961732d6e737404696e666f00c7fe3b0102026132c02bc7f9740102026230056363746c640b6166696c6961732d6e7374036f726700c7fe3c0102026232c055c7f97c0102026330c02bc7fe3d0102026430c055c7fe3e0103c0282001050000250000000000000000000103c0482001050000440000000000000000000103c0522001050000260000000000000000000103c07120010500004c0000000000000000000103c07b2001050000270000000000000000000103c0852001050000280000000000000000000101c02801c04801c05201c07101c07b01c085,
  0x01ae0000008cd7080220cd5ac0cb52d71dc6d369cc4cca8aad970690bcf3bc33f2202890668e47d34a5a02026130036e6963036c6473004116980902026132c02b41169b0902026230c02b4116990902026330c02b41169a0903c0282a01884000960000000000000000000903c0392a01884000990000000000000000000903c0432a01884000970000000000000000000903c04d2a01884000980000000000000000000901c02801c03901c04301c04d,
  0x01fc000000c2050802201c84ba6cc51944ecebd6a197de418af987c88a6ee0bdac2d1120b47e1da6bc9b020476306e30036e6963056c65617365004116183e020476306e31c02d4116193e020476306e32c02d41161a3e020476306e33c02da1e80c3e020476326e30c02d41161b3e020476326e31c02da1e80d3e03c0282a018840001a0000000000000000006203c03d2a018840001b0000000000000000006203c0492a018840001c0000000000000000006203c0552a01884000f60000000000000000006203c0612a018840001d0000000000000000006203c06d2a01884000f70000000000000000006201c02801c03d01c04901c05501c06101c06d,
  0x018e000000eb7f0d0220d64818b1cd557c6040e2f188d15748afb29ac5fac90e8403bd391776d34a9696020164036e696302667200c200090102016603657874c02ac2926a2e020167c039c200240103c02820010678000c0000000000000000000103c0372001067c10100011000000000000005303c04420010678004c0000000000000000000101c02801c03701c044,
  0x01b400000026670802201e6e8bf06f85006d806036254ebe92c97c5f2c44e133a92b997a247e3ae2416a0203616331056e73746c6403636f6d00c02aad1e0203616332c02cc02aae1e0203616333c02cc02aaf1e0203616334c02cc02ab01e03c0282001050001200000000000000000003003c03c2001050001210000000000000000003003c0472001050001220000000000000000003003c0522001050001230000000000000000003001c02801c03c01c04701c052,
  0x01fc0000002e5d080220c56d8a0808a1ba707334dafe4d97506bf25de7ce21885dd86c98c012e164f113020476306e30036e6963056c6567616c004116140c020476306e31c02d4116150c020476306e32c02d4116160c020476306e33c02da1e80a0c020476326e30c02d4116170c020476326e31c02da1e80b0c03c0282a01884000160000000000000000001203c03d2a01884000170000000000000000001203c0492a01884000180000000000000000001203c0552a01884000f40000000000000000001203c0612a01884000190000000000000000001203c06d2a01884000f50000000000000000001201c02801c03d01c04901c05501c06101c06d,
  0x01b40000006f78080220fdcdbd92d8a27f3a19ba30ef37e04ff21188973ee8648975e5b9a77db48478d60203616331056e73746c6403636f6d00c02aad1e0203616332c02cc02aae1e0203616333c02cc02aaf1e0203616334c02cc02ab01e03c0282001050001200000000000000000003003c03c2001050001210000000000000000003003c0472001050001220000000000000000003003c0522001050001230000000000000000003001c02801c03c01c04701c052,
  0x019f000000e9210802205e836746a8e2e867c1eb27292293f5af3e849c0b5f2462c86ffa9ee85668348d0201610b676d6f7265676973747279036e65740025d1c004020162c02a25d1c20402016bc02a25d1c40402016cc02a25d1c60403c02820010dcd00010000000000000000000403c04020010dcd00020000000000000000000403c05220010dcd00040000000000000000000401c02801c04001c04901c052,
  0x01af000000421008022058fc6791daa780f1b589fb72ce7f1e43f39dcd185df0e57ae60178e81fa174b602026130036e6963046c676274004116200102026132c02b4116230102026230c02b4116210102026330c02b4116220103c0282a01884000220000000000000000000103c03a2a01884000250000000000000000000103c0442a01884000230000000000000000000103c04e2a01884000240000000000000000000101c02801c03a01c04401c04e,
  0x01c8000000abd00d0220844e2b8c231f43692d319a33657a9a83c9f22baf53f276ef23f8405e20a0f1fa020161036e6963026c6900823b1f2a020162c02a823b1f2c020164c02ac2001928020165c02ac2001101020166c02ac2926a0e03c02820010620000000ff000000000000005703c03720010620000000ff000000000000005903c0402001067800200000000000000000004003c0492001067800030000000000000000000103c0522001067c10100003000000000000005301c02801c03701c04001c04901c052,
  0x0105010000651c0701145d6de6274d4355afe0aeab14a7090eceefedfe0c00651c070220417e1d3643742999e4f0041289835fcc4691e0462316515ece2cb61db57ef6e900d3e1070114d4a5619a11199e9c1ccdb83c02f2f710ddd79ee800d3e107022012602baa0fe5b77f6070a3e78c6bb5734bc8c415a7a74724d7060d8e23cb7a30020161036e6963046c69646c00c2a9da5b020162c084b918405b020163c084d412f85b020164c084d412f95b03c0822001067c13cc0000000000000001009103c0932a042b0013cc0000000000000001009103c09c2a042b0013ee0000000000000000009103c0a52a042b0013ff0000000000000000009101c08201c09301c09c01c0a5]
def data7 : List Nat := [
  0x01fb0000002b9c080220aa2dbff1c2f5e1c3c430e1bfc84208722612a39d3ca8e3974ddc5e0934564328020476306e30036e6963046c6966650041161423020476306e31c02d41161523020476306e32c02d41161623020476306e33c02da1e80a23020476326e30c02d41161723020476326e31c02da1e80b2303c0282a01884000160000000000000000003503c03c2a01884000170000000000000000003503c0482a01884000180000000000000000003503c0542a01884000f40000000000000000003503c0602a01884000190000000000000000003503c06c2a01884000f50000000000000000003501c02801c03c01c04801c05401c06001c06c,
  0x01fc000000981d080220e0fb583d29dfe85b4d42ca9b0fc5eb8dacba63a801af5b8515921702d2c3fa29020161036e69630d6c696665696e737572616e63650025d1c009020162c02a25d1c209020163c02a25d1c40902036e733103646e73c02a9c9a906602036e7332c0589c9a916602036e7333c0589c9a9f6603c02820010dcd00010000000000000000000903c04220010dcd00020000000000000000000903c04b20010dcd00030000000000000000000903c054261000a110710000000000000000006603c063261000a110720000000000000000006603c06e261000a110730000000000000000006601c02801c04201c04b01c05401c06301c06e,
  0x01b4000000a9ce080220bc977bf20baf75a4593e81d3e773f044543de7c3db7c8b0a7059e6f370a5c86c0203616331056e73746c6403636f6d00c02aad1e0203616332c02cc02aae1e0203616333c02cc02aaf1e0203616334c02cc02ab01e03c0282001050001200000000000000000003003c03c2001050001210000000000000000003003c0472001050001220000000000000000003003c0522001050001230000000000000000003001c02801c03c01c04701c052,
  0x01ff000000d9900802208ed67ccf601fcf46ff98b89154d21b8c5ef2d60f34a9a4d6d1968b5869beefad020476306e30036e6963086c69676874696e670041162034020476306e31c02d41162134020476306e32c02d41162234020476306e33c02da1e81034020476326e30c02d41162334020476326e31c02da1e8113403c0282a01884000220000000000000000005203c0402a01884000230000000000000000005203c04c2a01884000240000000000000000005203c0582a01884000fa0000000000000000005203c0642a01884000250000000000000000005203c0702a01884000fb0000000000000000005201c02801c04001c04c01c05801c06401c070,
  0x013f010000f4d3080220373514c7ee449cbd1d66527fa947c567a8dafea0065d055d3226307c8c2e28740204646e7331036e6963046c696b6500d5f8da480204646e7332c02d673152480204646e7333c02dd5f8de480204646e7334c02d2be632480204646e7361c02d9c9a64030204646e7362c02d9c9a65030204646e7363c02d9c9a66030204646e7364c02d9c9a670303c0282a01061804020000000000000000007203c03c2401fd8004020000000000000000007203c0482a01061804060000000000000000007203c0542401fd8004060000000000000000007203c06020010502ad090000000000000000000303c06c200105022eda0000000000000000000303c078261000a110090000000000000000000303c084261000a110100000000000000000000301c02801c03c01c04801c05401c06001c06c01c07801c084,
  0x01f4000000ee2a080220967d4df30e91fd6e0497c228c18db4fe6c3ef1479ce5428338fe0e746bc412e0020161036e6963056c696c6c790025d1c009020162c02a25d1c209020163c02a25d1c40902036e733103646e73c02a9c9a906802036e7332c0509c9a916802036e7333c0509c9a9f6803c02820010dcd00010000000000000000000903c03a20010dcd00020000000000000000000903c04320010dcd00030000000000000000000903c04c261000a110710000000000000000006803c05b261000a110720000000000000000006803c066261000a110730000000000000000006801c02801c03a01c04301c04c01c05b01c066,
  0x01fe0000006e5c080220a9350d48b0282a5bfe1f7311fe716de96cb29700b11642b15848419091c3e27a020476306e30036e6963076c696d697465640041161c34020476306e31c02d41161d34020476306e32c02d41161e34020476306e33c02da1e80e34020476326e30c02d41161f34020476326e31c02da1e80f3403c0282a018840001e0000000000000000005203c03f2a018840001f0000000000000000005203c04b2a01884000200000000000000000005203c0572a01884000f80000000000000000005203c0632a01884000210000000000000000005203c06f2a01884000f90000000000000000005201c02801c03f01c04b01c05701c06301c06f,
  0x01fb0000009bb60802209de0702a0eea28354d3dca5eb0870d939f439cb14a879b583b35911ccd15019b020476306e30036e6963046c696d6f004116141e020476306e31c02d4116151e020476306e32c02d4116161e020476306e33c02da1e80a1e020476326e30c02d4116171e020476326e31c02da1e80b1e03c0282a01884000160000000000000000003003c03c2a01884000170000000000000000003003c0482a01884000180000000000000000003003c0542a01884000f40000000000000000003003c0602a01884000190000000000000000003003c06c2a01884000f50000000000000000003001c02801c03c01c04801c05401c06001c06c,
  0x01f60000000e4d080220d29f19155fe9e20ae5a9fa1e1dea7dc1bada5d04f1ff458e8c14fcdf088acab1020161036e6963076c696e636f6c6e0025d1c009020162c02a25d1c209020163c02a25d1c40902036e733103646e73c02a9c9a906902036e7332c0529c9a916902036e7333c0529c9a9f6903c02820010dcd00010000000000000000000903c03c20010dcd00020000000000000000000903c04520010dcd00030000000000000000000903c04e261000a110710000000000000000006903c05d261000a110720000000000000000006903c068261000a110730000000000000000006901c02801c03c01c04501c04e01c05d01c068,
  0x01b4000000741c0802209fed261c4d71d0d992e1efe313bdff8c78f254db42e806f30ab5e02c49c732c30203616331056e73746c6403636f6d00c02aad1e0203616332c02cc02aae1e0203616333c02cc02aaf1e0203616334c02cc02ab01e03c0282001050001200000000000000000003003c03c2001050001210000000000000000003003c0472001050001220000000000000000003003c0522001050001230000000000000000003001c02801c03c01c04701c052,
  0x01b7000000417e0d022040f1045035d7ba48d27a66442b2c71ca159d219756d3ad4d35cf1e80419228b502036e73310b756e697265676973747279036e6574004060010102036e73320b756e69726567697374727904696e666f004060020102036e7333c02cb99fc50302036e7334c046b99fc60303c0282620005740000001000000000000000103c05d2620010a80aa0000000000000000000303c0682620010a80ab0000000000000000000301c02801c04201c05d01c068,
  0x01b400000073d7080220492b3408ed68c62db07f2abfe15c2b2de6ff28da1d6b4cfeb9ef26845e132b440203616331056e73746c6403636f6d00c02aad1e0203616332c02cc02aae1e0203616333c02cc02aaf1e0203616334c02cc02ab01e03c0282001050001200000000000000000003003c03c2001050001210000000000000000003003c0472001050001220000000000000000003003c0522001050001230000000000000000003001c02801c03c01c04701c052,
  0x01fb0000008de2080220201df9a9af6766d9cdbc8355756728f2db40ba93f9724f93aeeb1bddd7d564a0020476306e30036e6963046c6976650041161401020476306e31c02d41161501020476306e32c02d41161601020476306e33c02da1e80a01020476326e30c02d41161701020476326e31c02da1e80b0103c0282a01884000160000000000000000000103c03c2a01884000170000000000000000000103c0482a01884000180000000000000000000103c0542a01884000f40000000000000000000103c0602a01884000190000000000000000000103c06c2a01884000f50000000000000000000101c02801c03c01c04801c05401c06001c06c,
  0x01b400000024d5080220341ce294ded797dd426a6b6afeaa0c85ba65bbc8ec3d5a7895d77dee88435df40203616331056e73746c6403636f6d00c02aad1e0203616332c02cc02aae1e0203616333c02cc02aaf1e0203616334c02cc02ab01e03c0282001050001200000000000000000003003c03c2001050001210000000000000000003003c0472001050001220000000000000000003003c0522001050001230000000000000000003001c02801c03c01c04701c052,
  0x010d01000000b5050114a1907f85d49081239389c216912b8937d0eceb3d0000b505022087516d56b697cb3f7a7c3eb594ee0e16ae509d16a503089f4fbd4f347b336f93020163036e6963026c6b00cb8f1d03020164c0447be7061202016cc044c0f8081102016dc044ca81ebe5020170c044cc3dd81b020174c044cb5e428102036e7331026163c048c0f801a2020970656e647261676f6e026373067075726475650365647500800a020503c0422405540000030001020301430029000303c06c200105000014602700ad00000000000103c0752402d000100c0000000000000000012903c07e2401dd0000010000000000000000016201c04201c05101c05a01c06301c06c01c07501c07e01c08c,
  0x01ae00000063f708022093c8b54bd9413a06dc25a32304b423342fd3273ca6785071c4bd18a2d8b0481902026130036e6963036c6c63004116240902026132c02b4116270902026230c02b4116250902026330c02b4116260903c0282a01884000260000000000000000000903c0392a01884000290000000000000000000903c0432a01884000270000000000000000000903c04d2a01884000280000000000000000000901c02801c03901c04301c04d,
  0x01d10000006a500701145de35ece1ae46bba06281c8da6ffda34b167ac2e006a50070220b95649568bd88f57c7500a9e21d1d181065170cadbb881e299fd82e3a9909c2302036e73310b756e697265676973747279036e6574004060010102036e73320b756e69726567697374727904696e666f004060020102036e7333c046b99fc50302036e7334c060b99fc60303c0422620005740000001000000000000000103c0772620010a80aa0000000000000000000303c0822620010a80ab0000000000000000000301c04201c05c01c07701c082,
  0x01f30000007d2c0802204263def7bad2257b9020e8887811109cb097fe253bdb6cdcfa2c1f95ee136979020161036e6963046c6f616e0025d1c00a020162c02a25d1c20a020163c02a25d1c40a02036e733103646e73c02a9c9a906a02036e7332c04f9c9a916a02036e7333c04f9c9a9f6a03c02820010dcd00010000000000000000001003c03920010dcd00020000000000000000001003c04220010dcd00030000000000000000001003c04b261000a110710000000000000000006a03c05a261000a110720000000000000000006a03c065261000a110730000000000000000006a01c02801c03901c04201c04b01c05a01c065,
  0x01fc000000a5430802201861e548a3f914c3b7f4db8336e56041359d352b703d9e302193fc1a98d3ae1b020476306e30036e6963056c6f616e730041161837020476306e31c02d41161937020476306e32c02d41161a37020476306e33c02da1e80c37020476326e30c02d41161b37020476326e31c02da1e80d3703c0282a018840001a0000000000000000005503c03d2a018840001b0000000000000000005503c0492a018840001c0000000000000000005503c0552a01884000f60000000000000000005503c0612a018840001d0000000000000000005503c06d2a01884000f70000000000000000005501c02801c03d01c04901c05501c06101c06d,
  0x01b1000000189d0802202a62e4284ad1157a9994be5022a76cf66c2c233ceede058c673d065fee63b90e02026130036e6963066c6f636b6572004116602102026132c02b4116632102026230c02b4116612102026330c02b4116622103c0282a018840005e0000000000000000003303c03c2a01884000610000000000000000003303c0462a018840005f0000000000000000003303c0502a01884000600000000000000000003301c02801c03c01c04601c050,
  0x01400100005cb7080220fb7c38be258c83cb17367ab656fe05f6a8a2a616feac4115dcecfa7da03a12140204646e7331036e6963056c6f63757300d5f8db0b0204646e7332c02d6731530b0204646e7333c02dd5f8df0b0204646e7334c02d2be6330b0204646e7361c02d9c9a64030204646e7362c02d9c9a65030204646e7363c02d9c9a66030204646e7364c02d9c9a670303c0282a01061804030000000000000000001103c03d2401fd8004030000000000000000001103c0492a01061804070000000000000000001103c0552401fd8004070000000000000000001103c06120010502ad090000000000000000000303c06d200105022eda0000000000000000000303c079261000a110090000000000000000000303c085261000a110100000000000000000000301c02801c03d01c04901c05501c06101c06d01c07901c085,
  0x01440100003733050114a80aa63c99464101bad5a82079d748f602a4a79f0037330502204564b365617a6bcf1c53c04dd101339729f556c2837ad8ab095cff78cff1f97a003aab0501144f3c98c4c13b1657cfa5d90d945ef26008fdff32003aab05022024cea2aa8a26053d2da0301850748f74e217a52a1b1941e86963a32c5991e9bb00d351050114d96bd9ffffdf0e0f85a1e2fd01306042d63b391900d351050220efc57a65d9c270370a1dc1f6a3de157c6f09032864e976ac5bbb1710c6bc6779020161036e6963036c6f6c00c2a9da92020162c0c4b9184092020163c0c4d412f892020164c0c4d412f99203c0c22001067c13cc0000000000000001014603c0d22a042b0013cc0000000000000001014603c0db2a042b0013ee0000000000000000014603c0e42a042b0013ff0000000000000000014601c0c201c0d201c0db01c0e4,
  0x01d300000026e4080220dded8bee7362bbbf9f4186b413c901ff293f5897412fd92e5ef507765d0a6443002e550802205083facfd25edc276c25d2d3da986f370c82bf31a01821abf462c35800548f77020161036e6963066c6f6e646f6e00c2a9da8d020162c050b918408d020163c050d412f88d020164c050d412f98d03c04e2001067c13cc0000000000000001014103c0612a042b0013cc0000000000000001014103c06a2a042b0013ee0000000000000000014103c0732a042b0013ff0000000000000000014101c04e01c06101c06a01c073,
  0x019f00000086530802205d13945c642b308e7d91b7653614033529d3c6b95c38c0edb47913efc809d7690201610b676d6f7265676973747279036e65740025d1c004020162c02a25d1c20402016bc02a25d1c40402016cc02a25d1c60403c02820010dcd00010000000000000000000403c04020010dcd00020000000000000000000403c05220010dcd00040000000000000000000401c02801c04001c04901c052,
  0x01b0000000b19a0802206ffe76934a3634a61f99fad76fa0506a7682c5541452cf7b289f348fedd124bf02026130036e6963056c6f74746f0041161c1902026132c02b41161f1902026230c02b41161d1902026330c02b41161e1903c0282a018840001e0000000000000000002503c03b2a01884000210000000000000000002503c0452a018840001f0000000000000000002503c04f2a01884000200000000000000000002501c02801c03b01c04501c04f,
  0x01b70000006a450d0220099baacef86a52379cdc0f6756d1eadaa7963ff5c3a16cfe32340b109580b84b02036e73310b756e697265676973747279036e6574004060010102036e73320b756e69726567697374727904696e666f004060020102036e7333c02cb99fc50302036e7334c046b99fc60303c0282620005740000001000000000000000103c05d2620010a80aa0000000000000000000303c0682620010a80ab0000000000000000000301c02801c04201c05d01c068,
  0x01040100006af2070114ccc5b2d39befa0918768394724325608e076514f006af20702206f3063778a89b0c993a6d80c0f86b1bf14d3f5669075fc98dc16b8fd1608846e00c37807011408a7f61b3c9cf7fa6658ea454a0e5d9c2c62e49400c3780702204aaf92273ea09ca7ed698d5785389a7703a5475def5962e813c000fa7893b328020161036e6963036c706c00c2a9da5c020162c084b918405c020163c084d412f85c020164c084d412f95c03c0822001067c13cc0000000000000001009203c0922a042b0013cc0000000000000001009203c09b2a042b0013ee0000000000000000009203c0a42a042b0013ff0000000000000000009201c08201c09201c09b01c0a4,
  0x010d0100000e1f0701142d15ec1892f7e0ae2491b0cd144a114f65605778000e1f0702200d3ea589cbd6c634cecf40050614ee0f1a4c364f7cc74e225d29138db054a4fe00210707011496f3c31c34d12d10939065bb2b1e0ea86176da0d00210707022091d851ae03523f99d6c6def2d0ee451c6778ea3d58f4c347852972cc7b6b50b9020161036e69630c6c706c66696e616e6369616c00c2a9da5d020162c084b918405d020163c084d412f85d020164c084d412f95d03c0822001067c13cc0000000000000001009303c09b2a042b0013cc0000000000000001009303c0a42a042b0013ee0000000000000000009303c0ad2a042b0013ff0000000000000000009301c08201c09b01c0a401c0ad,
  0x01c50000007520080114a5e2025d5c3b1f4853bdda21aa6a751e552dc715007520080220aa0ec78a15474b054759a26a2be9d85a97f5fe9fe485a206e68b4f83b07789f802037269700370736703636f6d00931c00270204666f726b0373746807646e736e6f6465036e6574004d48e5fe02056e732d6c7207616672696e6963c065c4d8a83d03c0422001041800010000000000000000003903c0542a0103f000000306000000000000005303c06f200143f801200000000000000000006101c04201c05401c06f,
  0x0180000002036e7331036e6963026c7300c42bf90102036e7332c006c40baf0102056c732d6e7307616e796361737403706368036e657400cc3dd81c02056e732d6c7307616672696e6963c030c4d8a84603c01e200105000014602800ad00000000000103c03a200143f801200000000000000000007001c00201c01301c01e01c03a,
  0x01c1000000db85080220daeb03eba817b22e5e0fa3bb3e1fce483df8eb309e9d350838a9659e609e15aa02016103746c64026c7400c308da83020162c02ac2001401020163c02ac2000104020164c02ac2000301020165c02ac2001201020166c02ac200130103c0372001067800190000000000000000000103c0402001067800040000000000000000000403c0492001067800060000000000000000000103c05b20010678008c0000000000000000000101c02801c03701c04001c04901c05201c05b,
  0x01fa0000000036080220d0f5f5a210d27f70a8912bf81078beeb34dbd370d7f0470d1140b749ac2f3a46020476306e30036e6963036c74640041161c02020476306e31c02d41161d02020476306e32c02d41161e02020476306e33c02da1e80e02020476326e30c02d41161f02020476326e31c02da1e80f0203c0282a018840001e0000000000000000000203c03b2a018840001f0000000000000000000203c0472a01884000200000000000000000000203c0532a01884000f80000000000000000000203c05f2a01884000210000000000000000000203c06b2a01884000f90000000000000000000201c02801c03b01c04701c05301c05f01c06b,
  0x01af0000006f8508022044371eb8133d637de5a5f08b4465f9f92624d581808bb4547635815d455bd80402026130036e6963046c746461004116741102026132c02b4116771102026230c02b4116751102026330c02b4116761103c0282a01884000720000000000000000001703c03a2a01884000750000000000000000001703c0442a01884000730000000000000000001703c04e2a01884000740000000000000000001701c02801c03a01c04401c04e,
  0x01e900000051100802202bbe0b0c438f336ca96f655dccb9a72d7359064225d9e38a0a09804f9be2041502016703646e73026c7500c2001705020169c02ac2926a4202016ac02a4d48e5f702016bc02ac200010d020170c02ac2002a2a02036e7331c02a9e40e51203c02820010678001b0005000000000000000503c0372001067c10100016000000000000005303c0402a0103f000000307000000000000005303c0492001067800040000000000000000000d03c0522001067800600000000000000042004203c05b20010a1800040001000000000000001801c02801c03701c04001c04901c05201c05b,
  0x01b40000005ec2080220d632277d10695936ba14a7430fbc342c7a09423d6256311ba792363a1097a20c0203616331056e73746c6403636f6d00c02aad1e0203616332c02cc02aae1e0203616333c02cc02aaf1e0203616334c02cc02ab01e03c0282001050001200000000000000000003003c03c2001050001210000000000000000003003c0472001050001220000000000000000003003c0522001050001230000000000000000003001c02801c03c01c04701c052,
  0x01e90000008e570802205795a4998940987917475ae83f6f49b1fea576cac1203c449e9c8a3ede316785020161036e6963046c7578650025d1c00a020162c02a25d1c20a020163c02a25d1c40a020178c02a9c9aac52020179c02a9c9aad5202017ac02a9c9aae5203c02820010dcd00010000000000000000001003c03920010dcd00020000000000000000001003c04220010dcd00030000000000000000001003c04b261000a110740000000000000001008203c054261000a110750000000000000001008203c05d261000a110760000000000000001008201c02801c03901c04201c04b01c05401c05d,
  0x01d30000000e50080220d602e8f4fd9729146d1fb1d249544dceece615e528eb2e4997fb1760b004d67e007d27080220deb7fe904a2e04500acc98f3f5b9d6db275139fbc92ebb2938bcf9e842812935020161036e6963066c757875727900c2a9da62020162c050b9184062020163c050d412f862020164c050d412f96203c04e2001067c13cc0000000000000001009803c0612a042b0013cc0000000000000001009803c06a2a042b0013ee0000000000000000008503c0732a042b0013ff0000000000000000009801c04e01c06101c06a01c073,
  0x01e1000000a4220802207e932a4f9cf9b1cd047c277e3cd323a53d42347d47c7bf1dd6018ff4b344fc1c020161036e6963026c7600c2003001020162c02a5cf04601020164c02ac200080102016ec02ac2926a9602026e75c02a4d48e5f9020573756e69630573756e657402736500c0247d0203c02820010678007c0000000000000000007c03c04020010678000b0001000000000000000103c0492001067c10100038000000000000005303c0522a0103f000000312000000000000005303c05c200106b000070000000000000000000201c02801c03701c04001c04901c05201c05c,
  0x01cf000000f36708022008e9ac56f605a728d048c803787ab044b0c81caea2031eac9edea77150a1bdbe0203646e73066c74746e6574036e6574003ef024090203706368036c7474026c7900cc3dd8430204646e7331c02c3e442a0902056e732d6c7907616672696e6963c033c4d8a818020670686c6f656d07756f7265676f6e036564750080df202303c03d200105000014606700ad00000000000103c05a200143f801200000000000000000002403c06f200104680d0100200000000080df202301c02801c03d01c04e01c05a01c06f,
  0x011a010000ad680802200a29c6e91c00830d9a19996e4b4038c8316e62dfb69306c69155a4509dd88c7902016103746c64026d610051c0ab5302c02851c0ab83020162c02a51c0ab5402c03e51c0ab84020163c02a51c0ab7302c04e51c0ab8b020164c02a51c0ab7402c05e51c0ab8c020165c02a694950ec020166c02a29d6f0040203646e7305696e72696102667200c133d00d02056e732d6d61036e6963c08ac200090103c0282001428818000186000000000000000303c03e2001428818000186000000000000000403c04e2001428818000386000000000000000303c05e2001428818000386000000000000000403c09320010678000c0000000000000000000101c02801c03e01c04e01c05e01c06e01c07701c08001c093,
  0x01b40000001e6f0802207a63238cbc185a9dceb294cdd9b9fea1cea62261e7db1f5c8a83756d8f6aa11b0203616331056e73746c6403636f6d00c02aad1e0203616332c02cc02aae1e0203616333c02cc02aaf1e0203616334c02cc02ab01e03c0282001050001200000000000000000003003c03c2001050001210000000000000000003003c0472001050001220000000000000000003003c0522001050001230000000000000000003001c02801c03c01c04701c052,
  0x01cd000000d5060a0220b04cbf4df277fb7ab0799b9cce1469e120df69caaae1118dac9c408a970e35cc0208616e7963617374390769726f6e646e73036e657400c3fd400b0209616e79636173743130c031c3fd400c0209616e79636173743233c031c3fd410b0209616e79636173743234c031c3fd410c03c0282a0105b000040000000000000000000b03c0432a0105b000040000000000000000000c03c0542a0105b000050000000000000000000b03c0652a0105b000050000000000000000000c01c02801c04301c05401c065,
  0x01b4000000bd4b080220e44bc6e7cba1624a5f16941f1d53fe470a3a7da4b1c592878d1b32e8ebef667c0203616331056e73746c6403636f6d00c02aad1e0203616332c02cc02aae1e0203616333c02cc02aaf1e0203616334c02cc02ab01e03c0282001050001200000000000000000003003c03c2001050001210000000000000000003003c0472001050001220000000000000000003003c0522001050001230000000000000000003001c02801c03c01c04701c052,
  0x01fd000000b82d080220ae330295e4790375d3e98ac41830036aabb74d3d31b17c391b49d7fd2a4883bb020476306e30036e6963066d6169736f6e0041161c21020476306e31c02d41161d21020476306e32c02d41161e21020476306e33c02da1e80e21020476326e30c02d41161f21020476326e31c02da1e80f2103c0282a018840001e0000000000000000003303c03e2a018840001f0000000000000000003303c04a2a01884000200000000000000000003303c0562a01884000f80000000000000000003303c0622a01884000210000000000000000003303c06e2a01884000f90000000000000000003301c02801c03e01c04a01c05601c06201c06e,
  0x01d3000000c09e080220335d21fa55d5e1e94ad51a0cd89e8bef3f034c5f842c2ad0a305abedb260325700fafb080220d35bafb6c94ccfff2dd894b0b745c49c0717bcc5348ca5422b1a9405db1cafb8020161036e6963066d616b65757000c2a9da74020162c050b9184074020163c050d412f874020164c050d412f97403c04e2001067c13cc0000000000000001011603c0612a042b0013cc0000000000000001011603c06a2a042b0013ee0000000000000000011603c0732a042b0013ff0000000000000000011601c04e01c06101c06a01c073,
  0x01cd00000007500a02208e4b8fef8f9e2d51c3b5b4189cfa8cd13d23d6b700516fc4ac632fc47ef7e7de0208616e7963617374390769726f6e646e73036e657400c3fd400b0209616e79636173743130c031c3fd400c0209616e79636173743233c031c3fd410b0209616e79636173743234c031c3fd410c03c0282a0105b000040000000000000000000b03c0432a0105b000040000000000000000000c03c0542a0105b000050000000000000000000b03c0652a0105b000050000000000000000000c01c02801c04301c05401c065,
  0x01010100000b800802203212da6705ed0149ee2e13781d2708a6add9073dd6e680edb3d76d9e45427590020476306e30036e69630a6d616e6167656d656e74004116140e020476306e31c02d4116150e020476306e32c02d4116160e020476306e33c02da1e80a0e020476326e30c02d4116170e020476326e31c02da1e80b0e03c0282a01884000160000000000000000001403c0422a01884000170000000000000000001403c04e2a01884000180000000000000000001403c05a2a01884000f40000000000000000001403c0662a01884000190000000000000000001403c0722a01884000f50000000000000000001401c02801c04201c04e01c05a01c06601c072,
  0x01cd000000a5450a02203afd388dcc7de7ad4fa84ec0f897b59faef31877f80ef4d55e5acbdfd8ab98de0208616e7963617374390769726f6e646e73036e657400c3fd400b0209616e79636173743130c031c3fd400c0209616e79636173743233c031c3fd410b0209616e79636173743234c031c3fd410c03c0282a0105b000040000000000000000000b03c0432a0105b000040000000000000000000c03c0542a0105b000050000000000000000000b03c0652a0105b000050000000000000000000c01c02801c04301c05401c065,
  0x01fa00000040d80802202b0dbafc4eafa98fbed02adb2ff33c9af7666f2f9910a141573f511397393a4b02076e732d746c643116636861726c6573746f6e726f6164726567697374727903636f6d00d8ef206902076e732d746c6432c030d8ef226902076e732d746c6433c030d8ef246902076e732d746c6434c030d8ef266902076e732d746c6435c030d8ef3c6903c0282001486048020032000000000000006903c0512001486048020034000000000000006903c0602001486048020036000000000000006903c06f2001486048020038000000000000006903c07e2001486048050000000000000000006901c02801c05101c06001c06f01c07e,
  0x01fd0000009e53080220a42ed3b928b90e5b821578d204ba0d108138be438eea0f9ceb91436085264c80020476306e30036e6963066d61726b65740041161408020476306e31c02d41161508020476306e32c02d41161608020476306e33c02da1e80a08020476326e30c02d41161708020476326e31c02da1e80b0803c0282a01884000160000000000000000000803c03e2a01884000170000000000000000000803c04a2a01884000180000000000000000000803c0562a01884000f40000000000000000000803c0622a01884000190000000000000000000803c06e2a01884000f50000000000000000000801c02801c03e01c04a01c05601c06201c06e,
  0x0100010000570d080220f2fd61f041544a7a8dd1bf440c72020d08581190d697f3944886ad1ff08588e1020476306e30036e6963096d61726b6574696e670041161406020476306e31c02d41161506020476306e32c02d41161606020476306e33c02da1e80a06020476326e30c02d41161706020476326e31c02da1e80b0603c0282a01884000160000000000000000000603c0412a01884000170000000000000000000603c04d2a01884000180000000000000000000603c0592a01884000f40000000000000000000603c0652a01884000190000000000000000000603c0712a01884000f50000000000000000000601c02801c04101c04d01c05901c06501c071,
  0x01fe000000e3200802202c079f760779074e6ce68307c28f88f7b75d9fd6cfd65bec5c95c38d3ebfc614020476306e30036e6963076d61726b6574730041162041020476306e31c02d41162141020476306e32c02d41162241020476306e33c02da1e81041020476326e30c02d41162341020476326e31c02da1e8114103c0282a01884000220000000000000000006503c03f2a01884000230000000000000000006503c04b2a01884000240000000000000000006503c0572a01884000fa0000000000000000006503c0632a01884000250000000000000000006503c06f2a01884000fb0000000000000000006501c02801c03f01c04b01c05701c06301c06f,
  0x01b30000005f590802208684c74574a7d00d562dcd780c7deb8554f2de761bc6bf4f59197d8d9b0656a602026130036e6963086d617272696f7474004116ec0902026132c02b4116ef0902026230c02b4116ed0902026330c02b4116ee0903c0282a01884000e60000000000000000000903c03e2a01884000e90000000000000000000903c0482a01884000e70000000000000000000903c0522a01884000e80000000000000000000901c02801c03e01c04801c052,
  0x01f8000000811f0802205202ea0f1adf8fa9a0fdb1ebd7b3da0ad6274731623eb7e6ed2012f47678e413020161036e6963096d61727368616c6c730025d1c009020162c02a25d1c209020163c02a25d1c40902036e733103646e73c02a9c9a906c02036e7332c0549c9a916c02036e7333c0549c9a9f6c03c02820010dcd00010000000000000000000903c03e20010dcd00020000000000000000000903c04720010dcd00030000000000000000000903c050261000a110710000000000000000006c03c05f261000a110720000000000000000006c03c06a261000a110730000000000000000006c01c02801c03e01c04701c05001c05f01c06a,
  0x01b300000067ed080220193bbcaafe96b6e4c1fb29d6c85445acee4f86ca3197ea9922518d5241cc3a9702026130036e6963086d617365726174690041167c2102026132c02b41167f2102026230c02b41167d2102026330c02b41167e2103c0282a018840007a0000000000000000003303c03e2a018840007d0000000000000000003303c0482a018840007b0000000000000000003303c0522a018840007c0000000000000000003301c02801c03e01c04801c052,
  0x01f5000000e6a408022066f510d9469e77ae174bea4f42e1215afd837c2a27c9f0095bbbc3a3e2ba4ca4020161036e6963066d617474656c0025d1c009020162c02a25d1c209020163c02a25d1c40902036e733103646e73c02a9c9a906d02036e7332c0519c9a916d02036e7333c0519c9a9f6d03c02820010dcd00010000000000000000000903c03b20010dcd00020000000000000000000903c04420010dcd00030000000000000000000903c04d261000a110710000000000000000006d03c05c261000a110720000000000000000006d03c067261000a110730000000000000000006d01c02801c03b01c04401c04d01c05c01c067,
  0x01fa000000fead0802204076ff89017430719753df3c4c878f0114b1a6c14f79a9b8d7494f6f825afdec020476306e30036e6963036d6261004116183b020476306e31c02d4116193b020476306e32c02d41161a3b020476306e33c02da1e80c3b020476326e30c02d41161b3b020476326e31c02da1e80d3b03c0282a018840001a0000000000000000005903c03b2a018840001b0000000000000000005903c0472a018840001c0000000000000000005903c0532a01884000f60000000000000000005903c05f2a018840001d0000000000000000005903c06b2a01884000f70000000000000000005901c02801c03b01c04701c05301c05f01c06b,
  0x017f00000050c508022081e94624ea1edd7ac7a412f0e5311b7d4d9500ffdb005e98b2fc610239331a9b02026d63056363746c640761757468646e730472697065036e657400c100095c02036e7331036e6963026d630058d152d202036e7332c04c9505e60a03c0282001067c00e00000000000000000009201c02801c04801c059,
  0x01b300000069dc080220b9d92b7dbf31d3bd3aa6752bd38c50f6b637509e22c438a34677c843b9afd23802026130036e6963086d636b696e736579004116ec1902026132c02b4116ef1902026230c02b4116ed1902026330c02b4116ee1903c0282a01884000e60000000000000000002503c03e2a01884000e90000000000000000002503c0482a01884000e70000000000000000002503c0522a01884000e80000000000000000002501c02801c03e01c04801c052,
  0x019d000000007f0e0220ca674f4a54be4629950ecdfd492b82c5dfc833006924d5f06f40749a543dd1d402036e736103746c64026d6400b96cb5bf02036e7362c02cb96cb5c002036e736303646e73c03090d95d0202036e7366c0485cde4cb302036e7372c048d59fd27f03c04426075300020131000000000000002f6903c053200141d004013100000000000000716201c02801c03901c04401c05301c05e,
  0x01cd000000b1280802207708c8a6d5d72b63214bbff50cb54553f7e07a1fa5e9074bd8d63c43102d855902026130036e6963026d6500c7fd3b0102026132c02bc7f9770102026230c02bc7fd3c0102026232c02bc7f97f0102026330c02bc7fd3d0103c0282001050000530000000000000000000103c0382001050000470000000000000000000103c0422001050000540000000000000000000103c04c20010500004f0000000000000000000103c0562001050000550000000000000000000101c02801c03801c04201c04c01c056,
  0x013e0100008e670802204b9cbec710c3fb2eddc07ae31e75fa59855fb5abcb9ce68a61cb7e490b5831c40204646e7331036e6963036d656400d5f8db7c0204646e7332c02d6731537c0204646e7333c02dd5f8df7c0204646e7334c02d2be6337c0204646e7361c02d9c9a64030204646e7362c02d9c9a65030204646e7363c02d9c9a66030204646e7364c02d9c9a670303c0282a01061804030000000000000000012403c03b2401fd8004030000000000000000012403c0472a01061804070000000000000000012403c0532401fd8004070000000000000000012403c05f20010502ad090000000000000000000303c06b200105022eda0000000000000000000303c077261000a110090000000000000000000303c083261000a110100000000000000000000301c02801c03b01c04701c05301c05f01c06b01c07701c083,
  0x01fc000000d579080220d73ad588629eaac32749998639d85e8b383069cd7b85e4a5edd131156eb15b97020476306e30036e6963056d656469610041161403020476306e31c02d41161503020476306e32c02d41161603020476306e33c02da1e80a03020476326e30c02d41161703020476326e31c02da1e80b0303c0282a01884000160000000000000000000303c03d2a01884000170000000000000000000303c0492a01884000180000000000000000000303c0552a01884000f40000000000000000000303c0612a01884000190000000000000000000303c06d2a01884000f50000000000000000000301c02801c03d01c04901c05501c06101c06d,
  0x01fa000000dd5d08022092e856a377729b77ccfa92121fdfb3dc6e82c9adabfef4876765e4027d2d7afb02076e732d746c643116636861726c6573746f6e726f6164726567697374727903636f6d00d8ef206902076e732d746c6432c030d8ef226902076e732d746c6433c030d8ef246902076e732d746c6434c030d8ef266902076e732d746c6435c030d8ef3c6903c0282001486048020032000000000000006903c0512001486048020034000000000000006903c0602001486048020036000000000000006903c06f2001486048020038000000000000006903c07e2001486048050000000000000000006901c02801c05101c06001c06f01c07e,
  0x01ee0000000d9f080220a1b0b1ca0f068e57760b7a4183de3620eb0be059006f36d07fed827424f89589020161036e6963096d656c626f75726e650025d1c00a020162c02a25d1c20a020163c02a25d1c40a020178c02a9c9aac52020179c02a9c9aad5202017ac02a9c9aae5203c02820010dcd00010000000000000000001003c03e20010dcd00020000000000000000001003c04720010dcd00030000000000000000001003c050261000a110740000000000000001008203c059261000a110750000000000000001008203c062261000a110760000000000000001008201c02801c03e01c04701c05001c05901c062,
  0x01fa000000323908022058b9e8925215859c971bd949c9dbd299900c9d017211fb30282a3be9d8e7abf802076e732d746c643116636861726c6573746f6e726f6164726567697374727903636f6d00d8ef206902076e732d746c6432c030d8ef226902076e732d746c6433c030d8ef246902076e732d746c6434c030d8ef266902076e732d746c6435c030d8ef3c6903c0282001486048020032000000000000006903c0512001486048020034000000000000006903c0602001486048020036000000000000006903c06f2001486048020038000000000000006903c07e2001486048050000000000000000006901c02801c05101c06001c06f01c07e,
  0x01ff00000042ce080220125500a7dfbea41e4b90c1b086db21277340df1fbace51ac8e9aaa0c773d1d23020476306e30036e6963086d656d6f7269616c0041162040020476306e31c02d41162140020476306e32c02d41162240020476306e33c02da1e81040020476326e30c02d41162340020476326e31c02da1e8114003c0282a01884000220000000000000000006403c0402a01884000230000000000000000006403c04c2a01884000240000000000000000006403c0582a01884000fa0000000000000000006403c0642a01884000250000000000000000006403c0702a01884000fb0000000000000000006401c02801c04001c04c01c05801c06401c070,
  0x01e800000053020802206c3f496f5f6ada95799145c17fb84c995554114a8e2a77d27c58d7f383c9407f020161036e6963036d656e0025d1c00a020162c02a25d1c20a020163c02a25d1c40a020178c02a9c9aac52020179c02a9c9aad5202017ac02a9c9aae5203c02820010dcd00010000000000000000001003c03820010dcd00020000000000000000001003c04120010dcd00030000000000000000001003c04a261000a110740000000000000001008203c053261000a110750000000000000001008203c05c261000a110760000000000000001008201c02801c03801c04101c04a01c05301c05c,
  0x01e90000007a4d080220dea786e2b9c069e2595d79b03f3a920b0342bfbc017ec606a0184340e9c9c88d020161036e6963046d656e750025d1c00a020162c02a25d1c20a020163c02a25d1c40a020178c02a9c9aac52020179c02a9c9aad5202017ac02a9c9aae5203c02820010dcd00010000000000000000001003c03920010dcd00020000000000000000001003c04220010dcd00030000000000000000001003c04b261000a110740000000000000001008203c054261000a110750000000000000001008203c05d261000a110760000000000000001008201c02801c03901c04201c04b01c05401c05d,
  0x01b40000005b2c080220f6643d8ae9760f8033a5a14b231851cedff97429ef22514cfcb1ba625eac86a40203616331056e73746c6403636f6d00c02aad1e0203616332c02cc02aae1e0203616333c02cc02aaf1e0203616334c02cc02ab01e03c0282001050001200000000000000000003003c03c2001050001210000000000000000003003c0472001050001220000000000000000003003c0522001050001230000000000000000003001c02801c03c01c04701c052,
  0x017f000002026e7303647473026d6700c4c0200202026e73036e6963c009c4c02a990203706368c015cc3dd87902056e732d6d67086d616c616761737903636f6d00576284e7020c63656e7376726e733030303103697264026672005bcb209303c020200105000014612100ad00000000000101c00201c01201c02001c02b01c044,
  0x0135000002026e73066e74616d6172036e6574007567582102026e730c616d61727368616c6c696e6303636f6d0047a3f96101c00201c016,
  0x01ea0000004cc60802208f63985ad288d934e94263f9cea1f58734eda5b75b35bcb9ca39b3038bfc03aa020161036e6963056d69616d690025d1c00a020162c02a25d1c20a020163c02a25d1c40a020178c02a9c9aac52020179c02a9c9aad5202017ac02a9c9aae5203c02820010dcd00010000000000000000001003c03a20010dcd00020000000000000000001003c04320010dcd00030000000000000000001003c04c261000a110740000000000000001008203c055261000a110750000000000000001008203c05e261000a110760000000000000001008201c02801c03a01c04301c04c01c05501c05e,
  0x01b40000008bbf08022075b42b6862ac3b32fc471d044de968df0d3e9a2b6d4ead5addba4ed42fef185a0203616331056e73746c6403636f6d00c02aad1e0203616332c02cc02aae1e0203616333c02cc02aaf1e0203616334c02cc02ab01e03c0282001050001200000000000000000003003c03c2001050001210000000000000000003003c0472001050001220000000000000000003003c0522001050001230000000000000000003001c02801c03c01c04701c052,
  0x01fb000000f406080220be1683ce6c223cacb29c51244ab9f7bc2b0ff6096feac8ced63368f9dc5060e70204636f6e31046e697072036d696c00c7fc9dea0204636f6e32c02dc7fca2ea020465757231c02dc7fc9aea020465757232c02dc7fc8fea020470616331c02dc7fcb4ea020470616332c02dc7fc9bea03c02826080140000c0157000000000000023403c03c26080120000c0162000000000000023403c0482608412200020154000000000000023403c0542608416300010143000000000000023403c0602608c18400010180000000000000023403c06c2608c14400010155000000000000023401c02801c03c01c04801c05401c06001c06c,
  0x01d100000000520802206f84e8b483f6fefc9832a282ea80d4f30497393b5353cc6854431fa7fcb240f600d3f40802200da865b8e8a60553b90380aec9da84a2de372a2a098ec5f2f6e3502414947f88020161036e6963046d696e6900c2a9da5f020162c050b918405f020163c050d412f85f020164c050d412f95f03c04e2001067c13cc0000000000000001009503c05f2a042b0013cc0000000000000001009503c0682a042b0013ee0000000000000000009503c0712a042b0013ff0000000000000000009501c04e01c05f01c06801c071,
  0x01f9000000605e080220872536426335ac76542dd46851ae59fdbc13e1f33e8a5c49193ff5a70bda6fdc02036e733103646e73036e6963046d696e74009c9a907002036e7332c02c9c9a917002036e7333c02c9c9a9f7002036e7334c02c9c9a9c7002036e7335c02c9c9a9d7002036e7336c02c9c9a9e7003c028261000a110710000000000000000007003c03f261000a110720000000000000000007003c04a261000a110730000000000000000007003c055261000a110740000000000000000007003c060261000a110750000000000000000007003c06b261000a110760000000000000000007001c02801c03f01c04a01c05501c06001c06b,
  0x01ae000000febc080220321542533579ca11f6fc95ac23abae16a4dd112eb3785e98c51a47f5b25d2b9d02026130036e6963036d6974004116ec1102026132c02b4116ef1102026230c02b4116ed1102026330c02b4116ee1103c0282a01884000e60000000000000000001703c0392a01884000e90000000000000000001703c0432a01884000e70000000000000000001703c04d2a01884000e80000000000000000001701c02801c03901c04301c04d,
  0x019f000000b3870802201e5bc196fd959fbefb2cbd681475be0ff1de7fbd074b2ce338894ec2b011c0dc0201610b676d6f7265676973747279036e65740025d1c004020162c02a25d1c20402016bc02a25d1c40402016cc02a25d1c60403c02820010dcd00010000000000000000000403c04020010dcd00020000000000000000000403c05220010dcd00040000000000000000000401c02801c04001c04901c052,
  0x019b000002016403657874036e696302637a00c11dce0202036e73320561726e657302736900c2f9042c0204746c6431066d61726e6574026d6b00c29589a80206646e732d6d6b06756e69766965026163026174004e68910403c0022001067800010000000000000000000203c0152001147080000053000000000000004403c03d20010628045300bb000000000000000401c00201c01501c02801c03d,
  0x01820000020161026e73026d6c00b915a801020162c004b915a901020163c004b915aa01020164c004b915ab0103c0022a041b0000000000000000000000000103c0102a041b0000010000000000000000000103c0192a041b0000020000000000000000000103c0222a041b0000030000000000000000000101c00201c01001c01901c022,
  0x01f200000010e408022088b16b31916a70182f0809393aa481af43c61350734e0d1e8107ea8cf2348b83020161036e6963036d6c620025d1c009020162c02a25d1c209020163c02a25d1c40902036e733103646e73c02a9c9a907102036e7332c04e9c9a917102036e7333c04e9c9a9f7103c02820010dcd00010000000000000000000903c03820010dcd00020000000000000000000903c04120010dcd00030000000000000000000903c04a261000a110710000000000000000007103c059261000a110720000000000000000007103c064261000a110730000000000000000007101c02801c03801c04101c04a01c05901c064,
  0x016f0000008062080220ea3c1c5994bb36364acb0a9b8c09cd84477d6707c9317259bcbc8149992a485c020161026e73036e6963036d6c7300b99fc508020162c02ab99fc60803c0282620010a80aa0000000000000000000803c03b2620010a80ab0000000000000000000801c02801c03b,
  0x0161000000489d0802200a66403da2ceb4c3960750739074d5ca799334b45c85e3fedd7838e01a2435d8020161036e6963036e6574026d6d0025d1c004020162c02a25d1c204020163c02a25d1c404020164c02a25d1c60401c02801c03b01c04401c04d,
  0x018e000000e88e0d022025455417c20c22d815e00232defb2fc78e7b728600c91aadb21f8703ea1c314b020164036e696302667200c200090102016603657874c02ac2926a2e020167c039c200240103c02820010678000c0000000000000000000103c0372001067c10100011000000000000005303c04420010678004c0000000000000000000101c02801c03701c044,
  0x015201000057d9080220c069cd3e147e1f008fd2394a7112509c96d26094f876e48e56192779e1c47ba602026130056363746c640b6166696c6961732d6e737404696e666f00c7fe3b0102026132c02bc7f9740102026230056363746c640b6166696c6961732d6e7374036f726700c7fe3c0102026232c055c7f97c0102026330c02bc7fe3d0102026430c055c7fe3e0102036e7331056d61676963026d6e00ca83000a02036e7332c093ca48f10502036e7333c093ca83e05002036e7334c093da64541a03c0282001050000250000000000000000000103c0482001050000440000000000000000000103c0522001050000260000000000000000000103c07120010500004c0000000000000000000103c07b2001050000270000000000000000000103c0852001050000280000000000000000000101c02801c04801c05201c07101c07b01c08501c08f01c0a201c0ad01c0b8,
  0x01fa0000020161056d6f6e6963026d6f00caaf572f020162c004caaf5730020163c004caaf5731020164c004caaf3373020165c004caaf337402036e7332046375686b0365647502686b0089bd061502046e7331370463646e73036e657400c200011103c00220010f9000020008000000000000000203c01320010f9000020008000000000000000303c01c20010f9000020008000000000000000403c02520010f9000080000000000000000000203c02e20010f9000080000000000000000000303c0372405300000030006000000000000001503c04d2001067800040000000000000000001101c00201c01301c01c01c02501c02e01c03701c04d,
  0x0110010000db7f080220016c0d8022bef2cabb827ce75dabd8fd24cd0160ac277a95ecd5e79b1a95592c02026130046d6f62690b6166696c6961732d6e737404696e666f00c7fe370102026132c02bc7f9760102026230046d6f62690b6166696c6961732d6e7374036f726700c7fe380102026232c054c7f97e0102026330c02bc7fe390102026430c054c7fe3a0103c0282001050000210000000000000000000103c0472001050000460000000000000000000103c0512001050000220000000000000000000103c06f20010500004e0000000000000000000103c0792001050000230000000000000000000103c0832001050000240000000000000000000101c02801c04701c05101c06f01c07901c083,
  0x01b100000000550802207e9719c718c3954d6f5d3c8967b1424f663ac3ff24d49ba6c26a52ebcd2c3b0f02026130036e6963066d6f62696c65004116600902026132c02b4116630902026230c02b4116610902026330c02b4116620903c0282a018840005e0000000000000000000903c03c2a01884000610000000000000000000903c0462a018840005f0000000000000000000903c0502a01884000600000000000000000000901c02801c03c01c04601c050,
  0x01fb000000edfd080220d9124bbc4096e70b4aab2a0328750836243bb8ff45fb0aa3000239e83d5da1cd020476306e30036e6963046d6f6461004116141c020476306e31c02d4116151c020476306e32c02d4116161c020476306e33c02da1e80a1c020476326e30c02d4116171c020476326e31c02da1e80b1c03c0282a01884000160000000000000000002803c03c2a01884000170000000000000000002803c0482a01884000180000000000000000002803c0542a01884000f40000000000000000002803c0602a01884000190000000000000000002803c06c2a01884000f50000000000000000002801c02801c03c01c04801c05401c06001c06c,
  0x01f200000023140802200107dd039f8bd0049a6803271a15d71793a5234eef881013701e481774a8ba19020161036e6963036d6f650025d1c00a020162c02a25d1c20a020163c02a25d1c40a02036e733103646e73c02a9c9a907202036e7332c04e9c9a917202036e7333c04e9c9a9f7203c02820010dcd00010000000000000000001003c03820010dcd00020000000000000000001003c04120010dcd00030000000000000000001003c04a261000a110710000000000000000007203c059261000a110720000000000000000007203c064261000a110730000000000000000007201c02801c03801c04101c04a01c05901c064,
  0x013e010000c5d7080220d3f69d4c3a87516b81285c3cc392cc7b1a27eac534dd8a5df41b6dfd323576b90204646e7331036e6963036d6f6900d5f8da360204646e7332c02d673152360204646e7333c02dd5f8de360204646e7334c02d2be632360204646e7361c02d9c9a64030204646e7362c02d9c9a65030204646e7363c02d9c9a66030204646e7364c02d9c9a670303c0282a01061804020000000000000000005403c03b2401fd8004020000000000000000005403c0472a01061804060000000000000000005403c0532401fd8004060000000000000000005403c05f20010502ad090000000000000000000303c06b200105022eda0000000000000000000303c077261000a110090000000000000000000303c083261000a110100000000000000000000301c02801c03b01c04701c05301c05f01c06b01c07701c083,
  0x01440100002c540501146a1b7a558a82d6bbcdef5dea82af070b832bc7e1002c5405022097ffc26796c7b2a683048b7cf0bcecf3c54d00b0de377b54d7c7eeedeb2ea8b5006e020501142ab25d06f73e977ee5ced0fcf5ea4ed6ee50d269006e020502204b2b701367d0b74f52c9684e9b8921659045039452d135a55d128687c729fbf500a29a0501142744d01ec89a56e70f5b6c3171c39739e46afb3c00a29a0502207e3fd3d91571d30ceb82a33021657552e235f436d998a605611a0712b21aa1dc020161036e6963036d6f6d00c2a9da94020162c0c4b9184094020163c0c4d412f894020164c0c4d412f99403c0c22001067c13cc0000000000000001014803c0d22a042b0013cc0000000000000001014803c0db2a042b0013ee0000000000000000014803c0e42a042b0013ff0000000000000000014801c0c201c0d201c0db01c0e4,
  0x01ad000000ea3d080220d344b67791659d1f21f6181494a347040694c757c57a8d76cbccfd00caa1348f020161036e6963066d6f6e6173680025d1c009020162c02a25d1c209020163c02a25d1c409020164c02a25d1c60903c02820010dcd00010000000000000000000903c03b20010dcd00020000000000000000000903c04420010dcd00030000000000000000000903c04d20010dcd00040000000000000000000901c02801c03b01c04401c04d,
  0x01fc0000001162080220ccb7eba3b169edefbf21f0dd89667afa4920d4065d96c26f9a191b874ba25719020476306e30036e6963056d6f6e65790041161c0d020476306e31c02d41161d0d020476306e32c02d41161e0d020476306e33c02da1e80e0d020476326e30c02d41161f0d020476326e31c02da1e80f0d03c0282a018840001e0000000000000000001303c03d2a018840001f0000000000000000001303c0492a01884000200000000000000000001303c0552a01884000f80000000000000000001303c0612a01884000210000000000000000001303c06d2a01884000f90000000000000000001301c02801c03d01c04901c05501c06101c06d,
  0x0108010000dba60701149dd1cfcf93b8d7f4cbcaffb882c6dd820c345b3e00dba60702207de5a740d6e45c95c348209c877cb97736350694e595608da72a0645960937ce00fff3070114a0927d13ff8d54a355b158d01af184962b0d968400fff30702205a5b5575f92a04519f4c492d13f0f5039df17597db256444cda0ba6ca203a105020161036e6963076d6f6e7374657200c2a9da53020162c084b9184053020163c084d412f853020164c084d412f95303c0822001067c13cc0000000000000001008303c0962a042b0013cc0000000000000001008303c09f2a042b0013ee0000000000000000008303c0a82a042b0013ff0000000000000000008301c08201c09601c09f01c0a8,
  0x01b1000000640608022032bc7847356b87ef6e35d7ca36f19e481361d235c1e4ab7593012db12280425d02026130036e6963066d6f726d6f6e004116980102026132c02b41169b0102026230c02b4116990102026330c02b41169a0103c0282a01884000960000000000000000000103c03c2a01884000990000000000000000000103c0462a01884000970000000000000000000103c0502a01884000980000000000000000000101c02801c03c01c04601c050,
  0x01ff0000007e7c0802205a2743723615f674dd2633997cfb7d2e89a0db552bf7553b6eb80c449e998049020476306e30036e6963086d6f7274676167650041162038020476306e31c02d41162138020476306e32c02d41162238020476306e33c02da1e81038020476326e30c02d41162338020476326e31c02da1e8113803c0282a01884000220000000000000000005603c0402a01884000230000000000000000005603c04c2a01884000240000000000000000005603c0582a01884000fa0000000000000000005603c0642a01884000250000000000000000005603c0702a01884000fb0000000000000000005601c02801c04001c04c01c05801c06401c070,
  0x01e6000000c65208022063009cccfb519b1edff8beed4df77f0ea9741cddeb172207f622ccd913994e7502016103646e7308666c657869726567027275001fb1460102016203646e7308666c657869726567036e657400c3fd400602016303646e7308666c657869726567036f726700c3fd410602016403646e7308666c65786972656707646f6d61696e7300596f870103c0282a02209068000000000000000000000103c0402a0105b000040000000000000000000603c0592a0105b000050000000000000000000603c0722a0100d800080000000000000000000101c02801c04001c05901c072,
  0x01f900000029d1080220a039b06852099a6b4e7eafe4f4187f6d3b5747953413ce454ead9a4576301c5f02036e733103646e73036e6963046d6f746f009c9aa95102036e7332c02c9c9aaa5102036e7333c02c9c9aab5102036e7334c02c9c9aac5102036e7335c02c9c9aad5102036e7336c02c9c9aae5103c028261000a110710000000000000001005103c03f261000a110720000000000000001005103c04a261000a110730000000000000001005103c055261000a110740000000000000001005103c060261000a110750000000000000001005103c06b261000a110760000000000000001005101c02801c03f01c04a01c05501c06001c06b]
def data8 : List Nat := [
  0x01d8000000132a080220b200a2be6fcdbe18e128fcbf7f0e60f646b58f1d6c8842a9243c17aae03e74db0055930802206aca9a367926ed9773d6feea4671eedf7bf4ddc8c08b7cd8fec415e9dbdfcc66020161036e69630b6d6f746f726379636c657300c2a9da87020162c050b9184087020163c050d412f887020164c050d412f98703c04e2001067c13cc0000000000000001013503c0662a042b0013cc0000000000000001013503c06f2a042b0013ee0000000000000000013503c0782a042b0013ff0000000000000000013501c04e01c06601c06f01c078,
  0x01fa000000960e080220bbd1727de09ae643c1348d9637a31192116da5444852af3c1c5541e8998fb78b02076e732d746c643116636861726c6573746f6e726f6164726567697374727903636f6d00d8ef206902076e732d746c6432c030d8ef226902076e732d746c6433c030d8ef246902076e732d746c6434c030d8ef266902076e732d746c6435c030d8ef3c6903c0282001486048020032000000000000006903c0512001486048020034000000000000006903c0602001486048020036000000000000006903c06f2001486048020038000000000000006903c07e2001486048050000000000000000006901c02801c05101c06001c06f01c07e,
  0x01fc00000001870802200c93d08a6111d49129ac112076adf54b8b8e8975eb6f334372c8ce498664c422020476306e30036e6963056d6f766965004116201a020476306e31c02d4116211a020476306e32c02d4116221a020476306e33c02da1e8101a020476326e30c02d4116231a020476326e31c02da1e8111a03c0282a01884000220000000000000000002603c03d2a01884000230000000000000000002603c0492a01884000240000000000000000002603c0552a01884000fa0000000000000000002603c0612a01884000250000000000000000002603c06d2a01884000fb0000000000000000002601c02801c03d01c04901c05501c06101c06d,
  0x013f000002036e7331036e6963026d700010a21f8002036e7332c00610a3367a02036e7333c0064b65815902036e7334c0064b65856501c00201c01301c01e01c029,
  0x0141000002066e73312d6672096d6564696173657276036e657400b93833c202066e73312d6770c009d5bcac0102066e73312d6d71c009d510140301c00201c01d01c02b,
  0x01c100000060c7080220949e0aaf97f494ed93976a84dcb1b2654a8c35e6208009c50d54a9ad8fe88fa302036e7331036e6963026d7200c19296c102036e7332c02c5297400202036e7333c02ccc3dd88702056e732d6d72036e696302667200c200090102056e732d6d7207616672696e6963036e657400c4d8a83503c044200105000014613500ad00000000000103c04f20010678000c0000000000000000000103c062200143f801200000000000000000005301c02801c03901c04401c04f01c062,
  0x01980000020161066c6163746c64036f726700c800440a02036e73310a616e7963617374646e7302637a00b9266c6c02036e7332c019b91cc2c202056d732d6e7307616e796361737403706368036e657400cc3dd82103c00228010014a0000000000000000000001003c0152a00fea0dead0000000000000000beef03c038200105000014603300ad00000000000101c00201c01501c02d01c038,
  0x01b400000078810802208560961fd5e191d49b2461180f7edc509e10689f85ed595ad111956bc81ff9a20203616331056e73746c6403636f6d00c02aad1e0203616332c02cc02aae1e0203616333c02cc02aaf1e0203616334c02cc02ab01e03c0282001050001200000000000000000003003c03c2001050001210000000000000000003003c0472001050001220000000000000000003003c0522001050001230000000000000000003001c02801c03c01c04701c052,
  0x015c0000020161026e73026d7400c1bc2ffc020162c004c1bc22f1020166c004c05d0004020170c004cc3dd82d03c0192001066030050001000000000001000203c022200105000014604500ad00000000000101c00201c01001c01901c022,
  0x013e01000047c608022058114b80a64f8617af3ec29668c55519d8ccb44a203562d746e7f2cc8850a1eb0204646e7331036e6963036d746e00d5f8db2a0204646e7332c02d6731532a0204646e7333c02dd5f8df2a0204646e7334c02d2be6332a0204646e7361c02d9c9a64030204646e7362c02d9c9a65030204646e7363c02d9c9a66030204646e7364c02d9c9a670303c0282a01061804030000000000000000004203c03b2401fd8004030000000000000000004203c0472a01061804070000000000000000004203c0532401fd8004070000000000000000004203c05f20010502ad090000000000000000000303c06b200105022eda0000000000000000000303c077261000a110090000000000000000000303c083261000a110100000000000000000000301c02801c03b01c04701c05301c05f01c06b01c07701c083,
  0x01b200000089e0080220240f6007602f081298e80111ed582580f9a176e2fdc01686e75f2c20e1897bcf02036e7331036e6963036d747200cb7702a402036e7332c02ccb7757a402036e7333c02ca936f7ad02036e7334c02c875a5a1803c02820010dca4000000000000000cb7702a403c03a20010dca2000000000000000cb7757a403c0452607f0d01b0200b9000000000000000403c0502401c9002101002a000000000000000b01c02801c03a01c04501c050,
  0x01ac00000204666f726b0373746807646e736e6f6465036e6574004d48e5fe020575646e733103746c64026d7500cc3dd80a020575646e7332c023c10009620208616e7963617374310769726f6e646e73c013c3fd400503c0022a0103f000000306000000000000005303c01d200105000014601000ad00000000000103c0302001067c00e00000000000000000009803c03d2a0105b000040000000000000000000501c00201c01d01c03001c03d,
  0x018e00000055d10d0220bdb65bca27b34a0c9e296fb79efc78615678f7cc46eab5ef86fe59f259cc03c5020164036e696302667200c200090102016603657874c02ac2926a2e020167c039c200240103c02820010678000c0000000000000000000103c0372001067c10100011000000000000005303c04420010678004c0000000000000000000101c02801c03701c044,
  0x01c6000000ea64080114ee80f198da75c68c32a632e895502f3f2a32940e00ea64080220f4025f7b5c848808861bd35868bae0cfcf7a0fe3aa1f79bb222093687462f3fb020161036e6963056d7573696300c2a9da8e020162c044b918408e020163c044d412f88e020164c044d412f98e03c0422001067c13cc0000000000000001014203c0542a042b0013cc0000000000000001014203c05d2a042b0013ee0000000000000000014203c0662a042b0013ff0000000000000000014201c04201c05401c05d01c066,
  0x01f500000058ea0802207b979cc950139d75a2c3fcef3cd9282ad6e8677483e4646cc9d3c2523278e191020161036e6963066d757475616c0025d1c009020162c02a25d1c209020163c02a25d1c40902036e733103646e73c02a9c9a907602036e7332c0519c9a917602036e7333c0519c9a9f7603c02820010dcd00010000000000000000000903c03b20010dcd00020000000000000000000903c04420010dcd00030000000000000000000903c04d261000a110710000000000000000007603c05c261000a110720000000000000000007603c067261000a110730000000000000000007601c02801c03b01c04401c04d01c05c01c067,
  0x014c000002026e730a646869766568696e6574036e6574026d7600ca01c0c402036e7332c005ca01c9c902056d762d6e7307616e796361737403706368036e657400cc3dd81801c00201c01d01c028,
  0x0115010002026d77056363746c640761757468646e730472697065036e657400c100096302036e73340561706e6963c018ca0c1f3502037269700370736703636f6d00931c002702046d772d65026e73036e696302637a00b92b860a020470636831036e6963026d7700cc3dd8830205646f6d77650373646ec063295705a202c06cc42dbe0902066368616d626f0473646e70036f7267c06329dd638702c084c42dbc0503c0022001067c00e00000000000000000009903c02220010dd800120000000000000000005303c0332001041800010000000000000000003903c0452001148ffffd0000000000000000001003c05a200105000014613100ad00000000000101c00201c02201c03301c04501c05a01c06c01c084,
  0x019d000000f1bd080220bd34dc7ad75d94125810337700c6d0f9ee5dbfd4d52d13c2d88ac5e70deb8f79020163056d782d6e73026d7800c064e001020165c02abdc9f401020169c02acff8440102016dc02ac85eb00102016fc02ac8170101020178c02ac983fc0103c0282001125800000000000000000000000103c04b200113c770000000000000000000000101c02801c03901c04201c04b01c05401c05d,
  0x011301000000ae080220fb9e2f10f50a09e3614a9e6a2c76c1ae7554711e5242b7f516a8078d86ed87b9008a99080220ae555a40f6bdb488eb025822a71c91c94e1f339fdd71e0386561c3c4b7d2b198020161036e6963026d7900672c6c35020161056d796e69630e63656e7472616c6e69632d646e7303636f6d00c2a9da72020162c05fb9184072020163c05fd412f872020164c05fd412f97202026131c050caab2fcc03c04e20010ddc00000053000000000000005303c05d2001067c13cc0000000000000001011403c07e2a042b0013cc0000000000000001011403c0872a042b0013ee0000000000000000011403c0902a042b0013ff0000000000000000011401c04e01c05d01c07e01c08701c09001c099,
  0x01a500000205616e796e730375656d026d7a00cc3dd80e0205647a6f776fc008c403604202056e732d6d7a07616672696e6963036e657400c4d8a82802057a65627261c008c403604302066f6365616e6fc008c4036045020670686c6f656d07756f7265676f6e036564750080df202303c022200143f801200000000000000000004003c055200104680d0100200000000080df202301c00201c01501c02201c03a01c04701c055,
  0x01d100000061f7080220eae8c2767c1c52c78b844247a31b0ef44988782cb5517d502983ba75de98a62702026e610a616e7963617374646e7302637a00b91cc2c202c028b9266c6c0205616e7963320769726f6e646e73036e657400c3fd400702056e612d6e7307616e796361737403706368c054cc3dd823020665746c642d3107616e7963617374c0542d362d3603c0462a0105b000040000000000000000000703c05e200105000014603500ad00000000000103c0772607f74000450000000000000000005401c02801c04601c05e01c077,
  0x01b40000001b12080220bef206e03b68baed17ee330cf9581f1d4cb43dfc6be9078350d6ae20f3b7614b0203616331056e73746c6403636f6d00c02aad1e0203616332c02cc02aae1e0203616333c02cc02aaf1e0203616334c02cc02ab01e03c0282001050001200000000000000000003003c03c2001050001210000000000000000003003c0472001050001220000000000000000003003c0522001050001230000000000000000003001c02801c03c01c04701c052,
  0x019f000000ae01080220c856432f455a59b06c6964821f01a64fc0957dcb854eb10435e79caeb6c2486d0201610b676d6f7265676973747279036e65740025d1c004020162c02a25d1c20402016bc02a25d1c40402016cc02a25d1c60403c02820010dcd00010000000000000000000403c04020010dcd00020000000000000000000403c05220010dcd00040000000000000000000401c02801c04001c04901c052,
  0x01b4000000cd530802204e2671f0dbc3927d842053044c6a0cbf8b21e1e657de8bba99a4835031a85a410203616331056e73746c6403636f6d00c02aad1e0203616332c02cc02aae1e0203616333c02cc02aaf1e0203616334c02cc02ab01e03c0282001050001200000000000000000003003c03c2001050001210000000000000000003003c0472001050001220000000000000000003003c0522001050001230000000000000000003001c02801c03c01c04701c052,
  0x01e700000009a70d0220c42365fcde0c1898ab38a492ea636e38437fc87c5ef161bdc3c27893bfac9b6e02016103646e7302627200c8db940a020162c02ac8bd290a020163c02ac8c0e90a020164c02ac8db9a0a020165c02ac8e5f80a020166c02ac8db9f0a03c028200112f800060000000000000000001003c037200112f800080000000000000000001003c040200112f8000a0000000000000000001003c049200112f800040000000000000000001003c052200112f800020000000000000000001003c05b200112f8000c0000000000000000001001c02801c03701c04001c04901c05201c05b,
  0x01fb0000005fd70802206f05f1cc418bdc0c32058586cd7de8cf28ec70aa9c978e2613389226053c53bf020476306e30036e6963046e6176790041161c22020476306e31c02d41161d22020476306e32c02d41161e22020476306e33c02da1e80e22020476326e30c02d41161f22020476326e31c02da1e80f2203c0282a018840001e0000000000000000003403c03c2a018840001f0000000000000000003403c0482a01884000200000000000000000003403c0542a01884000f80000000000000000003403c0602a01884000210000000000000000003403c06c2a01884000f90000000000000000003401c02801c03c01c04801c05401c06001c06c,
  0x01f2000000ea07080220734021820d7b1fdeb0567389bcb05a0f47df5f2a0f156d6e9177a9edcb6a8716020161036e6963036e62610025d1c009020162c02a25d1c209020163c02a25d1c40902036e733103646e73c02a9c9a907702036e7332c04e9c9a917702036e7333c04e9c9a9f7703c02820010dcd00010000000000000000000903c03820010dcd00020000000000000000000903c04120010dcd00030000000000000000000903c04a261000a110710000000000000000007703c059261000a110720000000000000000007703c064261000a110730000000000000000007701c02801c03801c04101c04a01c05901c064,
  0x01c6000000bfa10802205957ab66cf4871c8c39edebc78dfab2b6dcbb3ea5e97278ea27190539410b75302026e63056363746c640761757468646e730472697065036e657400c100096402036e7331026e6300ca57811002036e7332c04cca5781110207616e792d6e7331c04c7245de0103c0282001067c00e00000000000000000010003c0482404220000101000000000000053000103c0552404220000101000000000000053000203c06020010500001480007245de000000000101c02801c04801c05501c060,
  0x018d000002026e65056363746c640761757468646e730472697065036e657400c100096502026e7306696e746e6574026e6500298a360a0203626f77047261696e02667200c233033102056e732d6e6507616672696e6963c018c4d8a82d03c0022001067c00e00000000000000000010103c047200143f801200000000000000000004501c00201c02201c03501c047,
  0x019f0000000d18080220077c18d635da43d7201764e89118f552f72428b12763f1bc258a5619b71458e70201610b676d6f7265676973747279036e65740025d1c004020162c02a25d1c20402016bc02a25d1c40402016cc02a25d1c60403c02820010dcd00010000000000000000000403c04020010dcd00020000000000000000000403c05220010dcd00040000000000000000000401c02801c04001c04901c052,
  0x01ca0100008c2e0802207862b27f5f516ebe19680444d4ce5e762981931842c465f00236401d8bd973ee0201610c67746c642d73657276657273036e657400c005061e020162c02ac0210e1e020163c02ac01a5c1e020164c02ac01f501e020165c02ac00c5e1e020166c02ac023331e020167c02ac02a5d1e020168c02ac036701e020169c02ac02bac1e02016ac02ac0304f1e02016bc02ac034b21e02016cc02ac029a21e02016dc02ac037531e03c02820010503a83e0000000000000002003003c04120010503231d0000000000000002003003c04a2001050383eb0000000000000000003003c05320010500856e0000000000000000003003c05c200105021ca10000000000000000003003c06520010503d4140000000000000000003003c06e20010503eea30000000000000000003003c0772001050208cc0000000000000000003003c0802001050339c10000000000000000003003c0892001050270940000000000000000003003c092200105030d2d0000000000000000003003c09b20010500d9370000000000000000003003c0a420010501b1f90000000000000000003001c02801c04101c04a01c05301c05c01c06501c06e01c07701c08001c08901c09201c09b01c0a4,
  0x01ae000000f0070802202e300d5e09bdd071679488d325666af89182213d8af2bd2d026c57f3fab5895e020161036e6963076e657462616e6b0025d1c009020162c02a25d1c209020163c02a25d1c409020164c02a25d1c60903c02820010dcd00010000000000000000000903c03c20010dcd00020000000000000000000903c04520010dcd00030000000000000000000903c04e20010dcd00040000000000000000000901c02801c03c01c04501c04e,
  0x01fc0000006bf50802207aba17bd5b87aa5d31cb611e0dfd4c67d926b6cfc68b8aeca58c468b104cc2e602036e733103646e73036e6963076e6574666c6978009c9a907902036e7332c02c9c9a917902036e7333c02c9c9a9f7902036e7334c02c9c9a9c7902036e7335c02c9c9a9d7902036e7336c02c9c9a9e7903c028261000a110710000000000000000007903c042261000a110720000000000000000007903c04d261000a110730000000000000000007903c058261000a110740000000000000000007903c063261000a110750000000000000000007903c06e261000a110760000000000000000007901c02801c04201c04d01c05801c06301c06e,
  0x01fe0000009dde08022067bbaa0c822dacf7baa5d8faac2591bdd7bf9a6a4189eca26a61c25276744d2b020476306e30036e6963076e6574776f726b0041162024020476306e31c02d41162124020476306e32c02d41162224020476306e33c02da1e81024020476326e30c02d41162324020476326e31c02da1e8112403c0282a01884000220000000000000000003603c03f2a01884000230000000000000000003603c04b2a01884000240000000000000000003603c0572a01884000fa0000000000000000003603c0632a01884000250000000000000000003603c06f2a01884000fb0000000000000000003601c02801c03f01c04b01c05701c06301c06f,
  0x01f600000080c20802209bc1d8d086284962e03fa43ae37ac80f2d784218cea1ef02b322220f5e15cafe020161036e6963076e6575737461720025d1c009020162c02a25d1c209020163c02a25d1c40902036e733403646e73c02ac70743fa02036e7335c052c0643bfa02036e7336c052c685c7fa03c02820010dcd00010000000000000000000903c03c20010dcd00020000000000000000000903c04520010dcd00030000000000000000000903c04e20010502100e0000000000000000025003c05d261000a110130000000000000000025003c068261000a110210000000000000000025001c02801c03c01c04501c04e01c05d01c068,
  0x01fa0000006457080220e03b5113926012d4d23705257017f61b0154976b32947ad983f3693b8477653f02076e732d746c643116636861726c6573746f6e726f6164726567697374727903636f6d00d8ef206902076e732d746c6432c030d8ef226902076e732d746c6433c030d8ef246902076e732d746c6434c030d8ef266902076e732d746c6435c030d8ef3c6903c0282001486048020032000000000000006903c0512001486048020034000000000000006903c0602001486048020036000000000000006903c06f2001486048020038000000000000006903c07e2001486048050000000000000000006901c02801c05101c06001c06f01c07e,
  0x01fb0000009c2b08022040c36d4b7aff71b956abbfd5710bb34dbdab3f020d58cb613da94fc359e63c36020476306e30036e6963046e6577730041162003020476306e31c02d41162103020476306e32c02d41162203020476306e33c02da1e81003020476326e30c02d41162303020476326e31c02da1e8110303c0282a01884000220000000000000000000303c03c2a01884000230000000000000000000303c0482a01884000240000000000000000000303c0542a01884000fa0000000000000000000303c0602a01884000250000000000000000000303c06c2a01884000fb0000000000000000000301c02801c03c01c04801c05401c06001c06c,
  0x01b4000000490b0802206f0eea97a1e666895178380d389d124cf968ee04b676aaf90d8daea1e1b71c6b0203616331056e73746c6403636f6d00c02aad1e0203616332c02cc02aae1e0203616333c02cc02aaf1e0203616334c02cc02ab01e03c0282001050001200000000000000000003003c03c2001050001210000000000000000003003c0472001050001220000000000000000003003c0522001050001230000000000000000003001c02801c03c01c04701c052,
  0x01b400000062100802205cb8a225364097555a383a056aea5e536c9be9ab870f9607701365f12e3a66910203616331056e73746c6403636f6d00c02aad1e0203616332c02cc02aae1e0203616333c02cc02aaf1e0203616334c02cc02ab01e03c0282001050001200000000000000000003003c03c2001050001210000000000000000003003c0472001050001220000000000000000003003c0522001050001230000000000000000003001c02801c03c01c04701c052,
  0x01fa00000077b40802204ff9338887c833c3d51a1c002600a2e8799a8af2da1246a54e43ea25e574b9ff02076e732d746c643116636861726c6573746f6e726f6164726567697374727903636f6d00d8ef206902076e732d746c6432c030d8ef226902076e732d746c6433c030d8ef246902076e732d746c6434c030d8ef266902076e732d746c6435c030d8ef3c6903c0282001486048020032000000000000006903c0512001486048020034000000000000006903c0602001486048020036000000000000006903c06f2001486048020038000000000000006903c07e2001486048050000000000000000006901c02801c05101c06001c06f01c07e,
  0x0191000000d3dc080220dd87dd324e8360dec8daaf2db771b8c52024d6cefeb76f2b855e0fc3b8fdb7d702026e7307616e7963617374036e6963026e6600cc3dd83302036e73310a616e7963617374646e7302637a00b9266c6c02036e7332c044b91cc2c203c028200105000014605100ad00000000000103c0402a00fea0dead0000000000000000beef01c02801c04001c058,
  0x01f8000000cb290802204f703d96f3eb2e4621c5176905407ceac4aef4cfa8409791afc2b20bdf4efb2a02036e733103646e73036e6963036e666c009c9a907a02036e7332c02c9c9a917a02036e7333c02c9c9a9f7a02036e7334c02c9c9a9c7a02036e7335c02c9c9a9d7a02036e7336c02c9c9a9e7a03c028261000a110710000000000000000007a03c03e261000a110720000000000000000007a03c049261000a110730000000000000000007a03c054261000a110740000000000000000007a03c05f261000a110750000000000000000007a03c06a261000a110760000000000000000007a01c02801c03e01c04901c05401c05f01c06a,
  0x0169000002036e7331036e6963036e6574026e6700c200011d02036e7332c006cc3dd82802036e7335c006c4d8a82902036e7361c00629de4f0303c0022001067800040000000000000000001d03c022200143f801200000000000000000004101c00201c01701c02201c02d,
  0x01ee0000005d88080220dfec23291372ba32bc2bde96f88a383373be1c4ba7bcdb65d5e34f1607400f6302026130036e6963036e676f00c713380102026132c02bc7f9700102026230c02bc713360102026232c02bc7f9780102026330c02bc713350102026430c02bc713390103c02820010500000e0000000000000000000103c0392001050000400000000000000000000103c04320010500000c0000000000000000000103c04d2001050000480000000000000000000103c05720010500000b0000000000000000000103c06120010500000f0000000000000000000101c02801c03901c04301c04d01c05701c061,
  0x019f000000688d0802206e9c65a3131229436d4c649a5b32377024f1a8d74ae38dfbadde3a007d00c6ae0201610b676d6f7265676973747279036e65740025d1c004020162c02a25d1c20402016bc02a25d1c40402016cc02a25d1c60403c02820010dcd00010000000000000000000403c04020010dcd00020000000000000000000403c05220010dcd00040000000000000000000401c02801c04001c04901c052,
  0x0181000002026e73026e6900a562010202026e73027575036e6574008927010302026e73056964656179036e6574c005ba011f0802036e7332c005c809bb0202036e7333c005be55e8910207646e732d657874036e696302637200c86b52db03c048200113c770040110000000000000021901c00201c00e01c01e01c03201c03d01c048,
  0x019f000000bd4c0802203f35a47bf0b6846b18a619300c133843de302c9606273a21a965f49da2f23e0a0201610b676d6f7265676973747279036e65740025d1c004020162c02a25d1c20402016bc02a25d1c40402016cc02a25d1c60403c02820010dcd00010000000000000000000403c04020010dcd00020000000000000000000403c05220010dcd00040000000000000000000401c02801c04001c04901c052,
  0x01f30000001102080220ff4031cf9735b318fdbe43b2ee7465b3911499f59bb3b0c420af4ed92a494276020161036e6963046e696b650025d1c009020162c02a25d1c209020163c02a25d1c40902036e733103646e73c02a9c9a907b02036e7332c04f9c9a917b02036e7333c04f9c9a9f7b03c02820010dcd00010000000000000000000903c03920010dcd00020000000000000000000903c04220010dcd00030000000000000000000903c04b261000a110710000000000000000007b03c05a261000a110720000000000000000007b03c065261000a110730000000000000000007b01c02801c03901c04201c04b01c05a01c065,
  0x01b40000004aa9080220f16fe14f9bc4e88dc2ef50a56ad4bd8abbae36dc98fab0b67418cc5cdc2f94160203616331056e73746c6403636f6d00c02aad1e0203616332c02cc02aae1e0203616333c02cc02aaf1e0203616334c02cc02ab01e03c0282001050001200000000000000000003003c03c2001050001210000000000000000003003c0472001050001220000000000000000003003c0522001050001230000000000000000003001c02801c03c01c04701c052,
  0x01fc000000b402080220c8f816a7a575bdb2f997f682aab2653ba2cb5eddb69b036a30742a33befaf141020476306e30036e6963056e696e6a610041161404020476306e31c02d41161504020476306e32c02d41161604020476306e33c02da1e80a04020476326e30c02d41161704020476326e31c02da1e80b0403c0282a01884000160000000000000000000403c03d2a01884000170000000000000000000403c0492a01884000180000000000000000000403c0552a01884000f40000000000000000000403c0612a01884000190000000000000000000403c06d2a01884000f50000000000000000000401c02801c03d01c04901c05501c06101c06d,
  0x019f00000091cc0802202f8edb59d650bf63c13e67695e5254d4ceeeb25ffaf456727e367da0031822560201610b676d6f7265676973747279036e65740025d1c004020162c02a25d1c20402016bc02a25d1c40402016cc02a25d1c60403c02820010dcd00010000000000000000000403c04020010dcd00020000000000000000000403c05220010dcd00040000000000000000000401c02801c04001c04901c052,
  0x01b4000000f2ac080220b59d6bda2c131f954a260174aae128a43ba29580997fc822e4006148960acfd40203616331056e73746c6403636f6d00c02aad1e0203616332c02cc02aae1e0203616333c02cc02aaf1e0203616334c02cc02ab01e03c0282001050001200000000000000000003003c03c2001050001210000000000000000003003c0472001050001220000000000000000003003c0522001050001230000000000000000003001c02801c03c01c04701c052,
  0x019000000085400802203c5b5f9b3557455c50751a9be9ebe9238c88e19f5f07f930976917b51b95cd2202036e733103646e73026e6c00c2001c3502036e7333c02cc200191802036e7334c02cb99fc7c803c02820010678002c0000019400000028005303c0392001067800200000000000000000002403c0442620010a80ac0000000000000000020001c02801c03901c044,
  0x01df00000094900d02206d374d769d1e4388b1a549a6da2f7d89371db6abaa53d20eec70844db4062e51020169036e6963026e6f00c2926a06020178c02a80270828020179c02ac14b041602017ac02a9e26088502036e6f74056e6f726964c02e9c9a640c02046e6a6574c0569c9a650c03c0282001067c10100001000000000000005303c037200107000000412f000000000000004003c040200108c082000001000000000000000203c049200107000000052d015800380008013303c05220010502ad090000000000000000001201c02801c03701c04001c04901c05201c063,
  0x01b0000000978a0802205d3c0f0b92084eb734e6e06364681b3bb051087a15ebe6f468b2974c5f197ab102026130036e6963056e6f6b6961004116941102026132c02b4116971102026230c02b4116951102026330c02b4116961103c0282a01884000920000000000000000001703c03b2a01884000950000000000000000001703c0452a01884000930000000000000000001703c04f2a01884000940000000000000000001701c02801c03b01c04501c04f,
  0x0101010000ba9a0802204aeb92ff7440bda088571ddd7fc9868579584f4a1455ee860394e81db1dd64f9020161036e6963126e6f7274687765737465726e6d757475616c0025d1c009020162c02a25d1c209020163c02a25d1c40902036e733103646e73c02a9c9a907c02036e7332c05d9c9a917c02036e7333c05d9c9a9f7c03c02820010dcd00010000000000000000000903c04720010dcd00020000000000000000000903c05020010dcd00030000000000000000000903c059261000a110710000000000000000007c03c068261000a110720000000000000000007c03c073261000a110730000000000000000007c01c02801c04701c05001c05901c06801c073,
  0x01b400000033270802208a3e13067f0237e9f16d0c6d25c72b262af2e49bbba4345c70e1ba5fd19ac3210203616331056e73746c6403636f6d00c02aad1e0203616332c02cc02aae1e0203616333c02cc02aaf1e0203616334c02cc02ab01e03c0282001050001200000000000000000003003c03c2001050001210000000000000000003003c0472001050001220000000000000000003003c0522001050001230000000000000000003001c02801c03c01c04701c052,
  0x013e010000d144080220530790ffb40a20cf7570a38b4f02e33e1b14e2eade01cd99f15c9bbdf2e581120204646e7331036e6963036e6f7700d5f8da490204646e7332c02d673152490204646e7333c02dd5f8de490204646e7334c02d2be632490204646e7361c02d9c9a64030204646e7362c02d9c9a65030204646e7363c02d9c9a66030204646e7364c02d9c9a670303c0282a01061804020000000000000000007303c03b2401fd8004020000000000000000007303c0472a01061804060000000000000000007303c0532401fd8004060000000000000000007303c05f20010502ad090000000000000000000303c06b200105022eda0000000000000000000303c077261000a110090000000000000000000303c083261000a110100000000000000000000301c02801c03b01c04701c05301c05f01c06b01c07701c083,
  0x01ae000000c69d080220f7691bfc344455bee7376fcf659fcf623ad2fd081900f4fb32db07c7bc6bdf57020161026e73036e6963066e6f7772757a004800310a020162c02a482a710a02036e73310a616e7963617374646e7302637a00b9266c6c02036e7332c04bb91cc2c203c028262001710a0100ad000000000000001003c03e262001710d0100dc000000000000001003c0472a00fea0dead0000000000000000beef01c02801c03e01c04701c05f,
  0x01b0000000766c08022006bcb6632fc4327ba1d5abff7caca06f7d01fcadefba3aea17db0839c5c9cc4a02026130036e6963056e6f777476004116ac0102026132c02b4116af0102026230c02b4116ad0102026330c02b4116ae0103c0282a01884000a60000000000000000000103c03b2a01884000a90000000000000000000103c0452a01884000a70000000000000000000103c04f2a01884000a80000000000000000000101c02801c03b01c04501c04f,
  0x01b9000002026e70056363746c640761757468646e730472697065036e657400c100096602036e73340561706e6963c018ca0c1f350203706368046e6e6963026e7000cc3dd80b02056e702d6e73046e706978036e6574c03cc6207e3202077368696b686172036d6f7303636f6dc03cca34ff0503c0022001067c00e00000000000000000010203c02220010dd800120000000000000000005303c033200105000014601100ad00000000000101c00201c02201c03301c04501c05b,
  0x017a000002036e73300663656e706163036e6574026e7200cb62e04202036e7331c006cb62e10902036e7332c006ca9080c8020670686c6f656d07756f7265676f6e036564750080df202303c0252405d00000000100000000000000020003c030200104680d0100200000000080df202301c00201c01a01c02501c030,
  0x01ae000000ac39080220c9ce8fb22e6e9eaa566d79696115fc26158be3f19c520de9490748be01982f4d02026130036e6963036e7261004116f01902026132c02b4116f31902026230c02b4116f11902026330c02b4116f21903c0282a01884000ea0000000000000000002503c0392a01884000ed0000000000000000002503c0432a01884000eb0000000000000000002503c04d2a01884000ec0000000000000000002501c02801c03901c04301c04d,
  0x01cd000000ee540a022003b1a9b2f537eeb6e16872fef7971d7fc55a71b270952bd1e7be44301f1cc2450208616e7963617374390769726f6e646e73036e657400c3fd400b0209616e79636173743130c031c3fd400c0209616e79636173743233c031c3fd410b0209616e79636173743234c031c3fd410c03c0282a0105b000040000000000000000000b03c0432a0105b000040000000000000000000c03c0542a0105b000050000000000000000000b03c0652a0105b000050000000000000000000c01c02801c04301c05401c065,
  0x01b6000000a5f1080220d21df93a73f35f8c3428a42db60da7ccebfc2a64a42b6f5e5024f358d5e18d440204746c6431036e6963036e747400672f02020204746c6432c02d756885110204746c6433c02d411628110204746c6435c02d4116289103c02820010dda00000000000000000000000203c03b2001021830010000000000000000000203c0472a01884001ba0000000000000000001703c0532a01884001ba0000000000000000014501c02801c03b01c04701c053,
  0x01e6000000a0f90d022046159142140bbf89ecb41e202f88da8c7d8a51b584aa5ea4a28ceaaaf9091185020161026e73026e7500c2926a16020163c02ac024906b020164c02ad56c190402016dc02ac2000b70020179c02ab99fc59602017ac02ab99fc69603c0282001067c10100005000000000000005303c0362a0103f000000301000000000000005303c03f2001067c124ce000000000000000000403c04820010678000e0112000000000000005303c0512620010a80aa0000000000000000015003c05a2620010a80ab0000000000000000015001c02801c03601c03f01c04801c05101c05a,
  0x01f2000000320b080220a5f2ec128186e5ba7f44ae789ed94f96e32811a68407d40e7073e2a58e8a1341020161036e6963036e79630025d1c00a020162c02a25d1c20a020163c02a25d1c40a02036e733103646e73c02a9c9a907d02036e7332c04e9c9a917d02036e7333c04e9c9a9f7d03c02820010dcd00010000000000000000001003c03820010dcd00020000000000000000001003c04120010dcd00030000000000000000001003c04a261000a110710000000000000000007d03c059261000a110720000000000000000007d03c064261000a110730000000000000000007d01c02801c03801c04101c04a01c05901c064,
  0x013e010000354e080220569b1bae369fd18f03d088fba91bd58a830e4e21d2c96155ced267544cac14b100c00508022044628e9bf710b40d5a5b19087a119eaf2c0b5ced7e7ba4268f4fc35bef14b1c002036e733103646e73036e6574026e7a00ca2ebe8202036e7332c052ca2ebb8202036e7333c052ca2ebc8202036e7334c052ca2ebd8202036e7335c052b99fc58202036e7336c052b99fc68202036e7337c052c2926a3603c04e20010dce20000002000000000000013003c06320010dce70000002000000000000013003c06e20010dced4530000000000000000005303c07920010dced4540000000000000000005303c0842620010a80aa0000000000000000013003c08f2620010a80ab0000000000000000013003c09a2001067c10100013000000000000005301c04e01c06301c06e01c07901c08401c08f01c09a,
  0x01d40000006760080220540d7e7cb6f111d9ea048e3801806a4814b6c1dd229f3a2414aae8facce3cb1300e4d20802208832df186f8c865bcb5d09023842e84a3e6ba037524d727d4b3770268bdf545d02026130036e6963036f6269004116701102026132c0514116731102026230c0514116711102026330c0514116721103c04e2a018840006e0000000000000000001703c05f2a01884000710000000000000000001703c0692a018840006f0000000000000000001703c0732a01884000700000000000000000001701c04e01c05f01c06901c073,
  0x01ff000000b404080220366c4c042dbbaa5636c254a7ab2331102545dca6f2c81c8ce6b42c6dd0cadeb4020476306e30036e6963086f62736572766572004116183f020476306e31c02d4116193f020476306e32c02d41161a3f020476306e33c02da1e80c3f020476326e30c02d41161b3f020476326e31c02da1e80d3f03c0282a018840001a0000000000000000006303c0402a018840001b0000000000000000006303c04c2a018840001c0000000000000000006303c0582a01884000f60000000000000000006303c0642a018840001d0000000000000000006303c0702a01884000f70000000000000000006301c02801c04001c04c01c05801c06401c070,
  0x01f500000019a2080220dbfb7bbbf0bed181cf7797bee3565a527b9d4746148ad3b2b835ecd1531ba925020161036e6963066f66666963650025d1c009020162c02a25d1c209020163c02a25d1c40902036e733103646e73c02a9c9a907e02036e7332c0519c9a917e02036e7333c0519c9a9f7e03c02820010dcd00010000000000000000000903c03b20010dcd00020000000000000000000903c04420010dcd00030000000000000000000903c04d261000a110710000000000000000007e03c05c261000a110720000000000000000007e03c067261000a110730000000000000000007e01c02801c03b01c04401c04d01c05c01c067,
  0x019f00000083c8080220ed3cf17ef5286ee0af90213fd802871a672213fece32038557dd2a0375a2e6c20201610b676d6f7265676973747279036e65740025d1c004020162c02a25d1c20402016bc02a25d1c40402016cc02a25d1c60403c02820010dcd00010000000000000000000403c04020010dcd00020000000000000000000403c05220010dcd00040000000000000000000401c02801c04001c04901c052,
  0x01eb000000ea9d080220930e37d43f6f58965863b8906adadfdf0091edee90b6c8c0dd3a88ed5112d2c8020161036e6963066f6c6179616e0025d1c009020162c02a25d1c209020163c02a25d1c409020178c02a9c9aac52020179c02a9c9aad5202017ac02a9c9aae5203c02820010dcd00010000000000000000000903c03b20010dcd00020000000000000000000903c04420010dcd00030000000000000000000903c04d261000a110740000000000000001008203c056261000a110750000000000000001008203c05f261000a110760000000000000001008201c02801c03b01c04401c04d01c05601c05f,
  0x01f00000003100080220b8a9fb54eaa15ad63b37ca39a06e8ec0052d61d51a8d26d5a825f81c2e1850d7020161036e69630b6f6c6179616e67726f75700025d1c009020162c02a25d1c209020163c02a25d1c409020178c02a9c9aac52020179c02a9c9aad5202017ac02a9c9aae5203c02820010dcd00010000000000000000000903c04020010dcd00020000000000000000000903c04920010dcd00030000000000000000000903c052261000a110740000000000000001008203c05b261000a110750000000000000001008203c064261000a110760000000000000001008201c02801c04001c04901c05201c05b01c064,
  0x01f6000000f03108022069b39a1fe5ad03f2a8494d74f48b0d7330e074c529f86cc1988456a8e2c83e2b020161036e6963076f6c646e6176790025d1c009020162c02a25d1c209020163c02a25d1c40902036e733103646e73c02a9c9a907f02036e7332c0529c9a917f02036e7333c0529c9a9f7f03c02820010dcd00010000000000000000000903c03c20010dcd00020000000000000000000903c04520010dcd00030000000000000000000903c04e261000a110710000000000000000007f03c05d261000a110720000000000000000007f03c068261000a110730000000000000000007f01c02801c03c01c04501c04e01c05d01c068,
  0x01af0000009a8d08022063769a931a3ee95afa940cc2d02ccdcc01bef022b6445495ae8cb153e211b3f502026130036e6963046f6c6c6f004116600102026132c02b4116630102026230c02b4116610102026330c02b4116620103c0282a018840005e0000000000000000000103c03a2a01884000610000000000000000000103c0442a018840005f0000000000000000000103c04e2a01884000600000000000000000000101c02801c03a01c04401c04e,
  0x01fe000002036e7331087265676973747279026f6d00b91b583202036e7332c006b91b593202056363746c64046265746106617269646e73036e65740261750025d1c20602056363746c6405616c706861c02e25d1c00602056363746c640564656c7461c02e25d1c60602056363746c640567616d6d61c02e25d1c40603c0022a00912000010000000000000000005003c0182a00912000020000000000000000005003c02320010dcd00020000000000000000000603c04220010dcd00010000000000000000000603c05520010dcd00040000000000000000000603c06820010dcd00030000000000000000000601c00201c01801c02301c04201c05501c068,
  0x01b400000010ad080220439d91ed221de512cb04f3a7218db1b019340b8d6228ab73dead0df30ab5cf7b0203616331056e73746c6403636f6d00c02aad1e0203616332c02cc02aae1e0203616333c02cc02aaf1e0203616334c02cc02ab01e03c0282001050001200000000000000000003003c03c2001050001210000000000000000003003c0472001050001220000000000000000003003c0522001050001230000000000000000003001c02801c03c01c04701c052,
  0x01e8000000de43080220c28cde2f5e88289c26584a4e6871b41e0f0c2d5f7f2df2906e8fbb275ac4aa68020161036e6963036f6e650025d1c009020162c02a25d1c209020163c02a25d1c409020178c02a9c9aac52020179c02a9c9aad5202017ac02a9c9aae5203c02820010dcd00010000000000000000000903c03820010dcd00020000000000000000000903c04120010dcd00030000000000000000000903c04a261000a110740000000000000001008203c053261000a110750000000000000001008203c05c261000a110760000000000000001008201c02801c03801c04101c04a01c05301c05c,
  0x01ee000000b275080220535cba6cfb082ffcce6584c2958dcbdf706a21de784096a2738b3acd8d64303202026130036e6963036f6e6700c713380102026132c02bc7f9700102026230c02bc713360102026232c02bc7f9780102026330c02bc713350102026430c02bc713390103c02820010500000e0000000000000000000103c0392001050000400000000000000000000103c04320010500000c0000000000000000000103c04d2001050000480000000000000000000103c05720010500000b0000000000000000000103c06120010500000f0000000000000000000101c02801c03901c04301c04d01c05701c061,
  0x01ae0000009f070802202144e3a641835a0f4944a2bab8df4dd9eecc76a76c330690765966c1c81a2d7802026130036e6963036f6e6c004116880102026132c02b41168b0102026230c02b4116890102026330c02b41168a0103c0282a01884000860000000000000000000103c0392a01884000890000000000000000000103c0432a01884000870000000000000000000103c04d2a01884000880000000000000000000101c02801c03901c04301c04d,
  0x01c700000010ab080114a038da06a96ad8e9bfe2ba78c392ff7804b4cd2b0010ab08022066d7010609cb19e99ad1da2833ddab8ca2e7acc1ce870cc28d29e76eb53d39ba020161036e6963066f6e6c696e6500c2a9da36020162c044b9184036020165c044d412f836020166c044d412f93603c0422001067c13cc0000000000000001005403c0552a042b0013cc0000000000000001005403c05e2a042b0013ee0000000000000000005403c0672a042b0013ff0000000000000000005401c04201c05501c05e01c067,
  0x01ea00000080970802202a406589bc010bbd09bb78e067dde644946d1af4389113341358cf135b6f491000a3a208011427dde633b73dd1f2703c0a89695862b056a0d29f00a3a2080220f9807556257f226660b308490776b72febd70dfde2ecd9e850fa1127b37c7799020161036e6963036f6f6f00c2a9da21020162c06ab9184021020163c06ad412f821020164c06ad412f92103c0682001067c13cc0000000000000001003303c0782a042b0013cc0000000000000001003303c0812a042b0013ee0000000000000000003303c08a2a042b0013ff0000000000000000003301c06801c07801c08101c08a,
  0x01f300000091e7080220a7c742af4b9a5c8f40c652ab5438e4107599c7f5b052fbf6588fd1cd79c9ca78020161036e6963046f70656e0025d1c009020162c02a25d1c209020163c02a25d1c40902036e733103646e73c02a9c9a908002036e7332c04f9c9a918002036e7333c04f9c9a9f8003c02820010dcd00010000000000000000000903c03920010dcd00020000000000000000000903c04220010dcd00030000000000000000000903c04b261000a110710000000000000000008003c05a261000a110720000000000000000008003c065261000a110730000000000000000008001c02801c03901c04201c04b01c05a01c065,
  0x01b400000018930802209f74eccb6080a089661309a8ae8f82146d0ee4cc7ca96f01f62ae47f76368f2a0203616331056e73746c6403636f6d00c02aad1e0203616332c02cc02aae1e0203616333c02cc02aaf1e0203616334c02cc02ab01e03c0282001050001200000000000000000003003c03c2001050001210000000000000000003003c0472001050001220000000000000000003003c0522001050001230000000000000000003001c02801c03c01c04701c052,
  0x01b4000000ad6108022054957bdf3921ca2d50bb340e042605f8d39ee91ca2a08a37424ce88882c4fe1a0203616331056e73746c6403636f6d00c02aad1e0203616332c02cc02aae1e0203616333c02cc02aaf1e0203616334c02cc02ab01e03c0282001050001200000000000000000003003c03c2001050001210000000000000000003003c0472001050001220000000000000000003003c0522001050001230000000000000000003001c02801c03c01c04701c052,
  0x010e010000695e0802204fede294c53f438a158c41d39489cd78a86beb0d8a0aeaff14745c0d16e1de3202026130036f72670b6166696c6961732d6e737404696e666f00c713380102026132c02bc7f9700102026230036f72670b6166696c6961732d6e7374036f726700c713360102026232c053c7f9780102026330c02bc713350102026430c053c713390103c02820010500000e0000000000000000000103c0462001050000400000000000000000000103c05020010500000c0000000000000000000103c06d2001050000480000000000000000000103c07720010500000b0000000000000000000103c08120010500000f0000000000000000000101c02801c04601c05001c06d01c07701c081,
  0x01b200000057ca0802205803fbc9f1fc0d4aa172dc24f6b2b099f18dc13e04cee7f605777d798a3a812f02026130036e6963076f7267616e6963004116142802026132c02b4116172802026230c02b4116152802026330c02b4116162803c0282a01884000160000000000000000004003c03d2a01884000190000000000000000004003c0472a01884000170000000000000000004003c0512a01884000180000000000000000004001c02801c03d01c04701c051,
  0x01b200000062920802205290155e291fba766eb200f5e95ac883babfbbfda64f5ad243068c7c8dc6019b02026130036e6963076f726967696e73004116342102026132c02b4116372102026230c02b4116352102026330c02b4116362103c0282a01884000320000000000000000003303c03d2a01884000350000000000000000003303c0472a01884000330000000000000000003303c0512a01884000340000000000000000003301c02801c03d01c04701c051,
  0x01f4000000c42d08022090146b6e89fb883144f08a93233f7265086d9e43728ee1c2739f5c3b6d00f9fc020161036e6963056f73616b610025d1c00a020162c02a25d1c20a020163c02a25d1c40a02036e733103646e73c02a9c9a908202036e7332c0509c9a918202036e7333c0509c9a9f8203c02820010dcd00010000000000000000001003c03a20010dcd00020000000000000000001003c04320010dcd00030000000000000000001003c04c261000a110710000000000000000008203c05b261000a110720000000000000000008203c066261000a110730000000000000000008201c02801c03a01c04301c04c01c05b01c066,
  0x019f000000047b08022099fa7ba5260c1c400fc5d65616fd3d796a6ab5aea557314cab10392de8fc90b30201610b676d6f7265676973747279036e65740025d1c004020162c02a25d1c20402016bc02a25d1c40402016cc02a25d1c60403c02820010dcd00010000000000000000000403c04020010dcd00020000000000000000000403c05220010dcd00040000000000000000000401c02801c04001c04901c052,
  0x01ae0000009bf5080220ea35cb20303ca3e610c87e77947bf04693f3e14933c59a60beff384bd0ca065402026130036e6963036f74740041165c0902026132c02b41165f0902026230c02b41165d0902026330c02b41165e0903c0282a018840005a0000000000000000000903c0392a018840005d0000000000000000000903c0432a018840005b0000000000000000000903c04d2a018840005c0000000000000000000901c02801c03901c04301c04d,
  0x018e000000616b0d022002a3f789b7d6c726513eebadf7f64741fed1acd57405339d9d50191c620cd914020164036e696302667200c200090102016603657874c02ac2926a2e020167c039c200240103c02820010678000c0000000000000000000103c0372001067c10100011000000000000005303c04420010678004c0000000000000000000101c02801c03701c044,
  0x01ad000002026e7302706100a84d080202026e7303646e7302627200c8a0000502026e73036e6963c005a84d080402036e7332c005a84d08070207646e732d657874036e696302637200c86b52db02097373646e732d746c64036e696302636c00c807050e03c00e200112ff00000a20000000000000000503c037200113c770040110000000000000021903c04c2001139802760000020000070005001401c00201c00e01c01e01c02c01c03701c04c,
  0x01fa000000fcc80802209be1303b86187df7f8ebe1c51bc70c2bfa1bc12ab98383ac2a7d0e18914292f502076e732d746c643116636861726c6573746f6e726f6164726567697374727903636f6d00d8ef206902076e732d746c6432c030d8ef226902076e732d746c6433c030d8ef246902076e732d746c6434c030d8ef266902076e732d746c6435c030d8ef3c6903c0282001486048020032000000000000006903c0512001486048020034000000000000006903c0602001486048020036000000000000006903c06f2001486048020038000000000000006903c07e2001486048050000000000000000006901c02801c05101c06001c06f01c07e,
  0x019f000000afd8080220a4b88bfb2b883fdf8ca5630562061fd5d7979f203962d1f4c5a0c9d79c4d3aff0201610b676d6f7265676973747279036e65740025d1c004020162c02a25d1c20402016bc02a25d1c40402016cc02a25d1c60403c02820010dcd00010000000000000000000403c04020010dcd00020000000000000000000403c05220010dcd00040000000000000000000401c02801c04001c04901c052,
  0x01ad0000008d3d0d0220e9aa567b3ffad9aa9f2c6a0bc0b7fed6d338c5150bd5627812a5f9957969c37d020164036e696302667200c200090102016603657874c02ac2926a2e020167c039c2002401020168c039c3fd420203c02820010678000c0000000000000000000103c0372001067c10100011000000000000005303c04420010678004c0000000000000000000103c04d2a0105b000060000000000000000000201c02801c03701c04401c04d,
  0x01ac0000000b5f080220bd1468967b866d21c106f1a2b92906604380e7787be97ac2855219dde2cd2285020161026e73036e696304706172730048003105020162c02a482a710502036e73310a616e7963617374646e7302637a00b9266c6c02036e7332c049b91cc2c203c028262001710a0100ad000000000000000503c03c262001710d0100dc000000000000000503c0452a00fea0dead0000000000000000beef01c02801c03c01c04501c05d,
  0x01ff0000006d03080220ded4dc046e9d9f9250f766bd987e6268d4c82333b9835a520aa311df9d3c0948020476306e30036e696308706172746e657273004116200f020476306e31c02d4116210f020476306e32c02d4116220f020476306e33c02da1e8100f020476326e30c02d4116230f020476326e31c02da1e8110f03c0282a01884000220000000000000000001503c0402a01884000230000000000000000001503c04c2a01884000240000000000000000001503c0582a01884000fa0000000000000000001503c0642a01884000250000000000000000001503c0702a01884000fb0000000000000000001501c02801c04001c04c01c05801c06401c070,
  0x01fc00000061870802203facb67c61427cac01c712ea17c8d0e9eb74f5290a2d36311499c096578254bd020476306e30036e69630570617274730041161435020476306e31c02d41161535020476306e32c02d41161635020476306e33c02da1e80a35020476326e30c02d41161735020476326e31c02da1e80b3503c0282a01884000160000000000000000005303c03d2a01884000170000000000000000005303c0492a01884000180000000000000000005303c0552a01884000f40000000000000000005303c0612a01884000190000000000000000005303c06d2a01884000f50000000000000000005301c02801c03d01c04901c05501c06101c06d]
def data9 : List Nat := [
  0x01f4000000faf608022011a853aee57ebcc64d5260df6a693f26aa144d4777ebe306f83a886a48f6cdec020161036e69630570617274790025d1c00a020162c02a25d1c20a020163c02a25d1c40a02036e733103646e73c02a9c9aa91802036e7332c0509c9aaa1802036e7333c0509c9aab1803c02820010dcd00010000000000000000001003c03a20010dcd00020000000000000000001003c04320010dcd00030000000000000000001003c04c261000a110710000000000000001001803c05b261000a110720000000000000001001803c066261000a110730000000000000001001801c02801c03a01c04301c04c01c05b01c066,
  0x01f8000000bb3c0802209dc55f59a55acede40f9e8a3df51d7781a4a8ca4d477ecf985f5b969599e05c8020161036e696309706173736167656e730025d1c009020162c02a25d1c209020163c02a25d1c40902036e733103646e73c02a9c9a908502036e7332c0549c9a918502036e7333c0549c9a9f8503c02820010dcd00010000000000000000000903c03e20010dcd00020000000000000000000903c04720010dcd00030000000000000000000903c050261000a110710000000000000000008503c05f261000a110720000000000000000008503c06a261000a110730000000000000000008501c02801c03e01c04701c05001c05f01c06a,
  0x013e010000f470080220da12c17ae6efe2aa5782c2c0cd41ba4a845ad04e2aea30a826418b4490ffb2640204646e7331036e69630370617900d5f8da4a0204646e7332c02d6731524a0204646e7333c02dd5f8de4a0204646e7334c02d2be6324a0204646e7361c02d9c9a64030204646e7362c02d9c9a65030204646e7363c02d9c9a66030204646e7364c02d9c9a670303c0282a01061804020000000000000000007403c03b2401fd8004020000000000000000007403c0472a01061804060000000000000000007403c0532401fd8004060000000000000000007403c05f20010502ad090000000000000000000303c06b200105022eda0000000000000000000303c077261000a110090000000000000000000303c083261000a110100000000000000000000301c02801c03b01c04701c05301c05f01c06b01c07701c083,
  0x01af000000aab608022059e6008039a16f566f18227380a702f8168707059629da13cbfb9d1203e5ef9302026130036e69630470636377004116742902026132c02b4116772902026230c02b4116752902026330c02b4116762903c0282a01884000720000000000000000004103c03a2a01884000750000000000000000004103c0442a01884000730000000000000000004103c04e2a01884000740000000000000000004101c02801c03a01c04401c04e,
  0x01bb0000001f2d0802207c4b12c0d916694718131c7b7607561393fb86e2a3159ce7a74ea9e29afb26f3020161066c6163746c64036f726700c800440a02037063680372637002706500cc3dd855020370653107646e736e6f6465036e657400c2926a520205717569707503726370036e6574c043c801b00403c02828010014a0000000000000000000001003c03b200105000014608500ad00000000000103c04c2001067c10100020000000000000005301c02801c03b01c04c01c062,
  0x01ae000000a768080220ee6c6c84eff7b00eb70d9bd8a29cee8a04d29d4d006cc1f61a95fff873fde97402026130036e696303706574004116101102026132c02b4116131102026230c02b4116111102026330c02b4116121103c0282a01884000120000000000000000001703c0392a01884000150000000000000000001703c0432a01884000130000000000000000001703c04d2a01884000140000000000000000001701c02801c03901c04301c04d,
  0x0124000002036e7331046d616e6102706600ca03e10a02036e7332c006ca03e11401c00201c014,
  0x01f5000000b4820802209166664240f37692a3886b0566e05220d43a364b2fef2581a905ef5833414bcb020161036e6963067066697a65720025d1c009020162c02a25d1c209020163c02a25d1c40902036e733103646e73c02a9c9a908602036e7332c0519c9a918602036e7333c0519c9a9f8603c02820010dcd00010000000000000000000903c03b20010dcd00020000000000000000000903c04420010dcd00030000000000000000000903c04d261000a110710000000000000000008603c05c261000a110720000000000000000008603c067261000a110730000000000000000008601c02801c03b01c04401c04d01c05c01c067,
  0x0192000002026e73027575036e6574008927010302036e7331057469617265036e657402706700caa5c01702036e733107756e6974656368026163c020ca01203102036e7332c016caa5c01802076d756e6e617269026f7a02617500ca1d970303c04a200103c890070001000000000000002103c04a200103c890090181000000000000000201c00201c01201c02901c03f01c04a,
  0x01a80000020131026e7302706800ce33ff01020270680c636f6d6d756e697479646e73036e657400c200011702036e7332046375686b0365647502686b0089bd061502036e73340561706e6963c020ca0c1f3503c0022620017108050ad2706800000000000103c0102001067800040000000000000000001703c02a2405300000030006000000000000001503c04020010dd800120000000000000000005301c00201c01001c02a01c040,
  0x01430100003661080220d24b9704b0642e8d9ea7cf6418c9212883ecd172c5651e89501c04724da8ac000204646e7331036e696308706861726d61637900d5f8db2d0204646e7332c02d6731532d0204646e7333c02dd5f8df2d0204646e7334c02d2be6332d0204646e7361c02d9c9a64030204646e7362c02d9c9a65030204646e7363c02d9c9a66030204646e7364c02d9c9a670303c0282a01061804030000000000000000004503c0402401fd8004030000000000000000004503c04c2a01061804070000000000000000004503c0582401fd8004070000000000000000004503c06420010502ad090000000000000000000303c070200105022eda0000000000000000000303c07c261000a110090000000000000000000303c088261000a110100000000000000000000301c02801c04001c04c01c05801c06401c07001c07c01c088,
  0x01fa000000974e080220de93541823cd232c5934ac0a420c0d90949c04020b6211d4c94d588cdc9fb8d802076e732d746c643116636861726c6573746f6e726f6164726567697374727903636f6d00d8ef206902076e732d746c6432c030d8ef226902076e732d746c6433c030d8ef246902076e732d746c6434c030d8ef266902076e732d746c6435c030d8ef3c6903c0282001486048020032000000000000006903c0512001486048020034000000000000006903c0602001486048020036000000000000006903c06f2001486048020038000000000000006903c07e2001486048050000000000000000006901c02801c05101c06001c06f01c07e,
  0x01ec0000000c1c080220fa65d969b695c8e73ddc89724cae9d83e352b23b57cf5571fd711e2627026638020161036e6963077068696c6970730025d1c009020162c02a25d1c209020163c02a25d1c409020178c02a9c9aac52020179c02a9c9aad5202017ac02a9c9aae5203c02820010dcd00010000000000000000000903c03c20010dcd00020000000000000000000903c04520010dcd00030000000000000000000903c04e261000a110740000000000000001008203c057261000a110750000000000000001008203c060261000a110760000000000000001008201c02801c03c01c04501c04e01c05701c060,
  0x01b0000000498d080220b7809834406510fcbea1aafa42f0bd2e7f4096bee97d8b7fd5964cdb39c607b402026130036e69630570686f6e65004116601102026132c02b4116631102026230c02b4116611102026330c02b4116621103c0282a018840005e0000000000000000001703c03b2a01884000610000000000000000001703c0452a018840005f0000000000000000001703c04f2a01884000600000000000000000001701c02801c03b01c04501c04f,
  0x01b7000000dad00d0220a9c731e215bc6ba13a585782939de293da96e91dec2a3ed9cd27d3486871937102036e73310b756e697265676973747279036e6574004060010102036e73320b756e69726567697374727904696e666f004060020102036e7333c02cb99fc50302036e7334c046b99fc60303c0282620005740000001000000000000000103c05d2620010a80aa0000000000000000000303c0682620010a80ab0000000000000000000301c02801c04201c05d01c068,
  0x0102010000769908022011ab70b24654e6225068852309a763d43af4958b7c670407842c40f655bee3aa020476306e30036e69630b70686f746f6772617068790041161803020476306e31c02d41161903020476306e32c02d41161a03020476306e33c02da1e80c03020476326e30c02d41161b03020476326e31c02da1e80d0303c0282a018840001a0000000000000000000303c0432a018840001b0000000000000000000303c04f2a018840001c0000000000000000000303c05b2a01884000f60000000000000000000303c0672a018840001d0000000000000000000303c0732a01884000f70000000000000000000301c02801c04301c04f01c05b01c06701c073,
  0x01fd000000a3ba080220b6a00eeeb4864e5152cf32cb1dc5ae4528ab2cf82c46a4de0a2d77921b51c979020476306e30036e69630670686f746f730041161c28020476306e31c02d41161d28020476306e32c02d41161e28020476306e33c02da1e80e28020476326e30c02d41161f28020476326e31c02da1e80f2803c0282a018840001e0000000000000000004003c03e2a018840001f0000000000000000004003c04a2a01884000200000000000000000004003c0562a01884000f80000000000000000004003c0622a01884000210000000000000000004003c06e2a01884000f90000000000000000004001c02801c03e01c04a01c05601c06201c06e,
  0x01eb000000bf7d080220ae268396dd64c1fcce4fd3ea3a3f6c427e4daad035aa4de961b6b8380a800153020161036e69630670687973696f0025d1c00a020162c02a25d1c20a020163c02a25d1c40a020178c02a9c9aac52020179c02a9c9aad5202017ac02a9c9aae5203c02820010dcd00010000000000000000001003c03b20010dcd00020000000000000000001003c04420010dcd00030000000000000000001003c04d261000a110740000000000000001008203c056261000a110750000000000000001008203c05f261000a110760000000000000001008201c02801c03b01c04401c04d01c05601c05f,
  0x01450100000d82050114356a302c72add225e8dbf542fd8851bfa458b1ae000d82050220a32c380766b5205f998872b8187a99ac5027872da54b0ddec2edfbefc6279b89001cf005011479f063399b4c13ca29ea8f68ff98d9d4eff59b59001cf005022002f6c4ff7037230837665a072a51779019771c19626e233465a9cab5eb69cee100b63b0501145a09c2c9b674b46ae6a49255de9fecb7d999467b00b63b0502205ddc0142062a06775e6df86a868a0262c740a484ff29fc22aec48116d6fd5860020161036e6963047069637300c2a9da97020162c0c4b9184097020163c0c4d412f897020164c0c4d412f99703c0c22001067c13cc0000000000000001015103c0d32a042b0013cc0000000000000001015103c0dc2a042b0013ee0000000000000000015103c0e52a042b0013ff0000000000000000015101c0c201c0d301c0dc01c0e5,
  0x01b400000000d8080220de41fd4b1c1cedab4d83f1bacc75db5012e269bd46a56b4c03d43380fba665e60203616331056e73746c6403636f6d00c02aad1e0203616332c02cc02aae1e0203616333c02cc02aaf1e0203616334c02cc02ab01e03c0282001050001200000000000000000003003c03c2001050001210000000000000000003003c0472001050001220000000000000000003003c0522001050001230000000000000000003001c02801c03c01c04701c052,
  0x01ff00000019ed080220550ea36a773c9dc5a81e39bb942120f5b00aa3eaefdeadc785c8fc7265d41012020476306e30036e69630870696374757265730041161410020476306e31c02d41161510020476306e32c02d41161610020476306e33c02da1e80a10020476326e30c02d41161710020476326e31c02da1e80b1003c0282a01884000160000000000000000001603c0402a01884000170000000000000000001603c04c2a01884000180000000000000000001603c0582a01884000f40000000000000000001603c0642a01884000190000000000000000001603c0702a01884000f50000000000000000001601c02801c04001c04c01c05801c06401c070,
  0x01aa0000008a44080220e8653b5c02c27cc66fd56d529656c23da9dc0231f060d527e231659f9ef27964020161036e69630370696400c2a9da2f020162c02ab918402f020163c02ad412f82f020164c02ad412f92f03c0282001067c13cc0000000000000001004703c0382a042b0013cc0000000000000001004703c0412a042b0013ee0000000000000000004703c04a2a042b0013ff0000000000000000004701c02801c03801c04101c04a,
  0x013e010000f97d080220b1e2d98d05c72adebb4876fd43cd7b3f1ed02856eeae8547b34769633e056b920204646e7331036e69630370696e00d5f8da4b0204646e7332c02d6731524b0204646e7333c02dd5f8de4b0204646e7334c02d2be6324b0204646e7361c02d9c9a64030204646e7362c02d9c9a65030204646e7363c02d9c9a66030204646e7364c02d9c9a670303c0282a01061804020000000000000000007503c03b2401fd8004020000000000000000007503c0472a01061804060000000000000000007503c0532401fd8004060000000000000000007503c05f20010502ad090000000000000000000303c06b200105022eda0000000000000000000303c077261000a110090000000000000000000303c083261000a110100000000000000000000301c02801c03b01c04701c05301c05f01c06b01c07701c083,
  0x01f300000045fa080220128d6bf21796bcdb0997673c07ca67cbdec3a09339034f311b1fecab03391a6d020161036e69630470696e670025d1c009020162c02a25d1c209020163c02a25d1c40902036e733103646e73c02a9c9aa91d02036e7332c04f9c9aaa1d02036e7333c04f9c9aab1d03c02820010dcd00010000000000000000000903c03920010dcd00020000000000000000000903c04220010dcd00030000000000000000000903c04b261000a110710000000000000001001d03c05a261000a110720000000000000001001d03c065261000a110730000000000000001001d01c02801c03901c04201c04b01c05a01c065,
  0x01cf000000cf2808022054475c411977fb9c94c01453633eb43b8dc64b154462de278a0644c6b83a79d102026130036e69630470696e6b0041161c1102026132c02b41161f1102026230c02b41161d1102026232c02b41161f1502026330c02b41161e1103c0282a018840001e0000000000000000001703c03a2a01884000210000000000000000001703c0442a018840001f0000000000000000001703c04e2a01884000210000000000000000002103c0582a01884000200000000000000000001701c02801c03a01c04401c04e01c058,
  0x0142010000cd160802204c7837526065fad0933b836efbf1694b16e9c38115a1ad0317bcc4ba599fb3670204646e7331036e69630770696f6e65657200d5f8db7e0204646e7332c02d6731537e0204646e7333c02dd5f8df7e0204646e7334c02d2be6337e0204646e7361c02d9c9a64030204646e7362c02d9c9a65030204646e7363c02d9c9a66030204646e7364c02d9c9a670303c0282a01061804030000000000000000012603c03f2401fd8004030000000000000000012603c04b2a01061804070000000000000000012603c0572401fd8004070000000000000000012603c06320010502ad090000000000000000000303c06f200105022eda0000000000000000000303c07b261000a110090000000000000000000303c087261000a110100000000000000000000301c02801c03f01c04b01c05701c06301c06f01c07b01c087,
  0x01fc000000d9c60802209271cd9fb2ca456900ef1e26877eb45d968d8ddf80281b6c6e05621f4067207f020476306e30036e69630570697a7a610041161c32020476306e31c02d41161d32020476306e32c02d41161e32020476306e33c02da1e80e32020476326e30c02d41161f32020476326e31c02da1e80f3203c0282a018840001e0000000000000000005003c03d2a018840001f0000000000000000005003c0492a01884000200000000000000000005003c0552a01884000f80000000000000000005003c0612a01884000210000000000000000005003c06d2a01884000f90000000000000000005001c02801c03d01c04901c05501c06101c06d,
  0x017500000206726f6f742d6505706b6e696302706b006b06b2b20206726f6f742d73c0097751225a0207726f6f742d6331c009b99fc5a00207726f6f742d6332c009b99fc6a003c0262620010a80aa0000000000000000016003c0352620010a80ab0000000000000000016001c00201c01801c02601c035,
  0x0177010000965b080220e6edf662199a44be077bd69be6ce26902f8d22e5875c9f2305866e05560549f200e9fb080220914b8a9bdae8efa6b0323ff7f7eb90da985fe63eae0e1cb614cf6d5b116f9c800205612d646e7302706c00c2b5579c0205622d646e73c054c0c348350205632d646e73c0545dbe80920205642d646e73c054b99fc5300205652d646e73c0542e1cf5520205662d646e73c054c200191d0205672d646e73c054959c01fc0205682d646e73c054b99fc6300205692d646e73c0549c9a640f03c04e20010a1001210001000000000000015603c05d200107f9000c0000000000000000005303c06a2a02003800140000000000000000014603c0772620010a80aa0000000000000000004803c0912001067800200000000000000000002903c09e200106d810010001000000000000025203c0ab2620010a80ab0000000000000000004803c0b8200105022eda0000000000000000001501c04e01c05d01c06a01c07701c08401c09101c09e01c0ab01c0b8,
  0x01fc00000001b40802202ee9ef69fb398b0d80a926994666cc9405231a042f31752d00295ccfc2ddbaf4020476306e30036e696305706c6163650041161c16020476306e31c02d41161d16020476306e32c02d41161e16020476306e33c02da1e80e16020476326e30c02d41161f16020476326e31c02da1e80f1603c0282a018840001e0000000000000000002203c03d2a018840001f0000000000000000002203c0492a01884000200000000000000000002203c0552a01884000f80000000000000000002203c0612a01884000210000000000000000002203c06d2a01884000f90000000000000000002201c02801c03d01c04901c05501c06101c06d,
  0x01fa00000061f90802200e823d1aa376c001a94c9efa4197f6e86c8088aa294aa26306093c3cf0908efa02076e732d746c643116636861726c6573746f6e726f6164726567697374727903636f6d00d8ef206902076e732d746c6432c030d8ef226902076e732d746c6433c030d8ef246902076e732d746c6434c030d8ef266902076e732d746c6435c030d8ef3c6903c0282001486048020032000000000000006903c0512001486048020034000000000000006903c0602001486048020036000000000000006903c06f2001486048020038000000000000006903c07e2001486048050000000000000000006901c02801c05101c06001c06f01c07e,
  0x019f0000008047080220a730646c6d6a5e9ad966881eea96e688600d163a409ae2bfe3a33bdbc780211a0201610b676d6f7265676973747279036e65740025d1c004020162c02a25d1c20402016bc02a25d1c40402016cc02a25d1c60403c02820010dcd00010000000000000000000403c04020010dcd00020000000000000000000403c05220010dcd00040000000000000000000401c02801c04001c04901c052,
  0x01ff000000be52080220d0024bf8bc37e85179a92e3b16f602aa566e63df0eb315324be040ff2d35bdb4020476306e30036e696308706c756d62696e67004116181c020476306e31c02d4116191c020476306e32c02d41161a1c020476306e33c02da1e80c1c020476326e30c02d41161b1c020476326e31c02da1e80d1c03c0282a018840001a0000000000000000002803c0402a018840001b0000000000000000002803c04c2a018840001c0000000000000000002803c0582a01884000f60000000000000000002803c0642a018840001d0000000000000000002803c0702a01884000f70000000000000000002801c02801c04001c04c01c05801c06401c070,
  0x01fb00000013d2080220eae08e76fc529973567f9ede81dcad8090f91800ab271b798006ae563a538b2f020476306e30036e696304706c75730041162027020476306e31c02d41162127020476306e32c02d41162227020476306e33c02da1e81027020476326e30c02d41162327020476326e31c02da1e8112703c0282a01884000220000000000000000003903c03c2a01884000230000000000000000003903c0482a01884000240000000000000000003903c0542a01884000fa0000000000000000003903c0602a01884000250000000000000000003903c06c2a01884000fb0000000000000000003901c02801c03c01c04801c05401c06001c06c,
  0x01ad00000046320d02207d82ccd8dd0674ca01ccf836c21240a504c85597eed5e511131c3e17c323b503020164036e696302667200c200090102016503657874c02ac1b09016020166c039c2926a2e020167c039c200240103c02820010678000c0000000000000000000103c0372a000d7800000102019301760144002203c0442001067c10100011000000000000005303c04d20010678004c0000000000000000000101c02801c03701c04401c04d,
  0x01c1000002036e733008706974636169726e036e657402706e00ade699b402036e7331c006cc3dd8880204646e73310a6e6f6d696e6574646e7302756b00d5f8dbfe0204646e7334c02c2be633fe0204666f726b0373746807646e736e6f6465036e6574004d48e5fe03c01c200105000014613600ad00000000000103c0272a01061804030000000000000000025403c0402401fd8004070000000000000000025403c04c2a0103f000000306000000000000005301c00201c01c01c02701c04001c04c,
  0x01ae0000009d48080220137c7b7b6be3d79ff1c7f5ddb9525cd8bf14b821dcec08ff5a3a7b128e58660b02026130036e696303706e63004116401902026132c02b4116431902026230c02b4116411902026330c02b4116421903c0282a018840003e0000000000000000002503c0392a01884000410000000000000000002503c0432a018840003f0000000000000000002503c04d2a01884000400000000000000000002501c02801c03901c04301c04d,
  0x01d1000000a29b080220d31963884932152ac788383aba38b83f187291afb59092a43185734ec561f50600cc64080220f733939f77fe6a3f4fc63546cf69c4a86cf432bd6f41147b287818bfc87661c5020161036e696304706f686c00c2a9da60020162c050b9184060020163c050d412f860020164c050d412f96003c04e2001067c13cc0000000000000001009603c05f2a042b0013cc0000000000000001009603c0682a042b0013ee0000000000000000009603c0712a042b0013ff0000000000000000009601c04e01c05f01c06801c071,
  0x01b00000003238080220571efc932d4c25e2f41df9e216b66732f8d17bb7efd2f6230af3127948ba167c02026130036e696305706f6b6572004116142102026132c02b4116172102026230c02b4116152102026330c02b4116162103c0282a01884000160000000000000000003303c03b2a01884000190000000000000000003303c0452a01884000170000000000000000003303c04f2a01884000180000000000000000003301c02801c03b01c04501c04f,
  0x0195000000f7fd08022098f1793434c640fcb733f3a17c6bbe63d32666debe54bb4d264bc22f273a4e1502036e7331036e696307706f6c6974696500c2001c0502036e7333c02cc200191b02036e7334c02cb99fc7cb03c02820010678002c0000019400000028000503c03e2001067800200000000000000000002703c0492620010a80ac0000000000000000020301c02801c03e01c049,
  0x01e90000000c7c0802206b2d8feea5a23845e6934f5639d4055639d7b8d1fac4b5c19c7e5cd45745344d020161036e696304706f726e0025d1c00a020162c02a25d1c20a020163c02a25d1c40a020178c02a9c9aac52020179c02a9c9aad5202017ac02a9c9aae5203c02820010dcd00010000000000000000001003c03920010dcd00020000000000000000001003c04220010dcd00030000000000000000001003c04b261000a110740000000000000001008203c054261000a110750000000000000001008203c05d261000a110760000000000000001008201c02801c03901c04201c04b01c05401c05d,
  0x01100100008b8d0802205b8265dc3f1952980ab5369253c4a4ed9d674d91b8c39360b22a7deaef168fe00202613004706f73740b6166696c6961732d6e737404696e666f004116000102026132c02b411604010202623004706f73740b6166696c6961732d6e7374036f7267004116010102026232c0544116050102026330c02b4116020102026430c0544116030103c0282a01884000000000000000000000000103c0472a01884000040000000000000000000103c0512a01884000010000000000000000000103c06f2a01884000050000000000000000000103c0792a01884000020000000000000000000103c0832a01884000030000000000000000000101c02801c04701c05101c06f01c07901c083,
  0x015e010000140e0802202e7f12833596203dbef32dbcebc2cfd2f6d3aa4432a9bb39927394c6cf1a844a020161066c6163746c64036f726700c800440a020261300270720b6166696c6961732d6e737404696e666f00c7fe3b1102026132c03ec7f97411020262300270720b6166696c6961732d6e7374c031c7fe3c1102026232c065c7f97c1102026330c03ec7fe3d1102026430c065c7fe3e11020670722d646e730564656e696302646500c2000b6f03c02828010014a0000000000000000000001003c03b2001050000250000000000000000001703c0582001050000440000000000000000001703c0622001050000260000000000000000001703c07b20010500004c0000000000000000001703c0852001050000270000000000000000001703c08f2001050000280000000000000000001703c09920010678000e0111000000000000005301c02801c03b01c05801c06201c07b01c08501c08f01c099,
  0x01f8000000a68a08022034c29e72afde2f27194a21e6d5c9e91ac44b5c04328d7fade36c026c18c118ea020161036e6963097072616d65726963610025d1c009020162c02a25d1c209020163c02a25d1c40902036e733103646e73c02a9c9a908a02036e7332c0549c9a918a02036e7333c0549c9a9f8a03c02820010dcd00010000000000000000000903c03e20010dcd00020000000000000000000903c04720010dcd00030000000000000000000903c050261000a110710000000000000000008a03c05f261000a110720000000000000000008a03c06a261000a110730000000000000000008a01c02801c03e01c04701c05001c05f01c06a,
  0x01f4000000dc7e080220b6eb17a0657c338c939960a1b134af133254bb756d7211cb3d9aa4dcd2495656020161036e69630570726178690025d1c009020162c02a25d1c209020163c02a25d1c40902036e733103646e73c02a9c9a908b02036e7332c0509c9a918b02036e7333c0509c9a9f8b03c02820010dcd00010000000000000000000903c03a20010dcd00020000000000000000000903c04320010dcd00030000000000000000000903c04c261000a110710000000000000000008b03c05b261000a110720000000000000000008b03c066261000a110730000000000000000008b01c02801c03a01c04301c04c01c05b01c066,
  0x01c600000010c10801142efc540d13139b56fc1041247b275bc5cc6de0090010c108022003a4602f454dd05e3ef2b7a9507f7e4eeb78ba9259e35da7c3b20fd8da43341a020161036e696305707265737300c2a9da22020162c044b9184022020165c044d412f822020166c044d412f92203c0422001067c13cc0000000000000001003403c0542a042b0013cc0000000000000001003403c05d2a042b0013ee0000000000000000003403c0662a042b0013ff0000000000000000003401c04201c05401c05d01c066,
  0x0140010000bbd0080220b29003c3e5f60ce38190106f221d85b335972c9dec6ea671c1536f63e081d2140204646e7331036e6963057072696d6500d5f8da330204646e7332c02d673152330204646e7333c02dd5f8de330204646e7334c02d2be632330204646e7361c02d9c9a64030204646e7362c02d9c9a65030204646e7363c02d9c9a66030204646e7364c02d9c9a670303c0282a01061804020000000000000000005103c03d2401fd8004020000000000000000005103c0492a01061804060000000000000000005103c0552401fd8004060000000000000000005103c06120010502ad090000000000000000000303c06d200105022eda0000000000000000000303c079261000a110090000000000000000000303c085261000a110100000000000000000000301c02801c03d01c04901c05501c06101c06d01c07901c085,
  0x010e010000a4aa0802205a8a58f4e30cde44a47091488870d109108ff45d42fdfdd30b448d78dffd5566020261300370726f0b6166696c6961732d6e737404696e666f00c7b6000102026132c02bc7b62001020262300370726f0b6166696c6961732d6e7374036f726700c7b6010102026232c053c7b6280102026330c02bc7b6100102026430c053c7b6110103c0282001050000c00000000000000000000103c0462001050000e00000000000000000000103c0502001050000c10000000000000000000103c06d2001050000e10000000000000000000103c0772001050000d00000000000000000000103c0812001050000d10000000000000000000101c02801c04601c05001c06d01c07701c081,
  0x01fa00000053f60802200a30297175bc29b23297d15887e6d884c63afafd110d7a7212aead473925e56e02076e732d746c643116636861726c6573746f6e726f6164726567697374727903636f6d00d8ef206902076e732d746c6432c030d8ef226902076e732d746c6433c030d8ef246902076e732d746c6434c030d8ef266902076e732d746c6435c030d8ef3c6903c0282001486048020032000000000000006903c0512001486048020034000000000000006903c0602001486048020036000000000000006903c06f2001486048020038000000000000006903c07e2001486048050000000000000000006901c02801c05101c06001c06f01c07e,
  0x0102010000d83a08022061296764506d9b3ea454b8cf49fea13cbb8662804f0a02948139ffbb0e0cbc8f020476306e30036e69630b70726f64756374696f6e730041161c10020476306e31c02d41161d10020476306e32c02d41161e10020476306e33c02da1e80e10020476326e30c02d41161f10020476326e31c02da1e80f1003c0282a018840001e0000000000000000001603c0432a018840001f0000000000000000001603c04f2a01884000200000000000000000001603c05b2a01884000f80000000000000000001603c0672a01884000210000000000000000001603c0732a01884000f90000000000000000001601c02801c04301c04f01c05b01c06701c073,
  0x01fa0000005da9080220a0f1aa6c62a81b21ae5f3ccb1369da38e79352431378efe10556a85a3e06759002076e732d746c643116636861726c6573746f6e726f6164726567697374727903636f6d00d8ef206902076e732d746c6432c030d8ef226902076e732d746c6433c030d8ef246902076e732d746c6434c030d8ef266902076e732d746c6435c030d8ef3c6903c0282001486048020032000000000000006903c0512001486048020034000000000000006903c0602001486048020036000000000000006903c06f2001486048020038000000000000006903c07e2001486048050000000000000000006901c02801c05101c06001c06f01c07e,
  0x01b600000043b1080220f6623efa3c197e122f7037a659f8e7fb2cec4d91af518653d04b44f15a72abc902026130036e69630b70726f6772657373697665004116c82102026132c02b4116cb2102026230c02b4116c92102026330c02b4116ca2103c0282a01884000c20000000000000000003303c0412a01884000c50000000000000000003303c04b2a01884000c30000000000000000003303c0552a01884000c40000000000000000003301c02801c04101c04b01c055,
  0x01b0000000f013080220583dcffeacf0cf25f52e5f4d356db7e3d3e4145992edc4e8b1fea3b5ad1868ca02026130036e69630570726f6d6f004116f40902026132c02b4116f70902026230c02b4116f50902026330c02b4116f60903c0282a01884000ee0000000000000000000903c03b2a01884000f10000000000000000000903c0452a01884000ef0000000000000000000903c04f2a01884000f00000000000000000000901c02801c03b01c04501c04f,
  0x01010100005ff5080220519c0cae03f6f4a6679f85ed1376f04a6702406f0731734618f608895306e4f5020476306e30036e69630a70726f70657274696573004116142e020476306e31c02d4116152e020476306e32c02d4116162e020476306e33c02da1e80a2e020476326e30c02d4116172e020476326e31c02da1e80b2e03c0282a01884000160000000000000000004603c0422a01884000170000000000000000004603c04e2a01884000180000000000000000004603c05a2a01884000f40000000000000000004603c0662a01884000190000000000000000004603c0722a01884000f50000000000000000004601c02801c04201c04e01c05a01c06601c072,
  0x01b700000081190d02206dff521d658293fd458e615debb6ca0c76341775f72f340bcd3960851b4c536f02036e73310b756e697265676973747279036e6574004060010102036e73320b756e69726567697374727904696e666f004060020102036e7333c02cb99fc50302036e7334c046b99fc60303c0282620005740000001000000000000000103c05d2620010a80aa0000000000000000000303c0682620010a80ab0000000000000000000301c02801c04201c05d01c068,
  0x01cb000000b6fe08011444911d0cb6ae4931c66c83c2881085e48866b07500b6fe0802203e780717cc500405e3e7869aebbe9f3d49ac770b338e216fca3f096efe92f2cf020161036e69630a70726f74656374696f6e00c2a9da43020162c044b9184043020165c044d412f843020166c044d412f94303c0422001067c13cc0000000000000001006703c0592a042b0013cc0000000000000001006703c0622a042b0013ee0000000000000000006703c06b2a042b0013ff0000000000000000006701c04201c05901c06201c06b,
  0x01f2000000ee2408022097a2de7c9e4880f5f4528c07d2446e93ecf03289b85a8b79ac9355914b18e957020161036e6963037072750025d1c009020162c02a25d1c209020163c02a25d1c40902036e733103646e73c02a9c9a908d02036e7332c04e9c9a918d02036e7333c04e9c9a9f8d03c02820010dcd00010000000000000000000903c03820010dcd00020000000000000000000903c04120010dcd00030000000000000000000903c04a261000a110710000000000000000008d03c059261000a110720000000000000000008d03c064261000a110730000000000000000008d01c02801c03801c04101c04a01c05901c064,
  0x01f9000000eda3080220c69dabd2cf3d79d968533bfc2cdb13a20ed9792260f42de04bdaa6925ae9a4a1020161036e69630a70727564656e7469616c0025d1c009020162c02a25d1c209020163c02a25d1c40902036e733103646e73c02a9c9a908e02036e7332c0559c9a918e02036e7333c0559c9a9f8e03c02820010dcd00010000000000000000000903c03f20010dcd00020000000000000000000903c04820010dcd00030000000000000000000903c051261000a110710000000000000000008e03c060261000a110720000000000000000008e03c06b261000a110730000000000000000008e01c02801c03f01c04801c05101c06001c06b,
  0x01e5000002027073056363746c640761757468646e730472697065036e657400c100096902036e733105706e696e6102707300c206e11402037269700370736703636f6d00931c00270204646e733103676f76c02cd5f452930204666f726b0373746807646e736e6f6465c0184d48e5fe020570732d6e7307616e796361737403706368c018cc3dd81d03c0022001067c00e00000000000000000010503c0352001041800010000000000000000003903c0572a0103f000000306000000000000005303c06f200105000014602900ad00000000000101c00201c02201c03501c04701c05701c06f,
  0x01530100009cdb0d0220b0ed28b7255e9880e7ce4665b75ae7271f7837899057f0d4b897ece2eb1eb49402016103646e7302707400b927d001020162c02ac2001917020163c02acc3dd869020164c02ab927d201020165c02ac188c040020167c02ac18802e2020168c02ac2926a8a02026e7303646e7302627200c8a0000502036e7332036e696302667200c05d000403c0282a046d8000000000000000000000000103c0372001067800200000000000000000002303c040200105000014610500ad00000000000103c0492a046d8200000000000000000000000103c052200106900a004001000000000000006403c05b200106900a804001000000000000010003c0642001067c10100035000000000000005303c06d200112ff00000a20000000000000000503c07d2001066030050001000000000001000201c02801c03701c04001c04901c05201c05b01c06401c06d01c07d,
  0x01fa000000d2100802203766469c89af5eca8e8c5852e359396294057677c5ae8ca9c641422d7237bb4f020476306e30036e6963037075620041161c07020476306e31c02d41161d07020476306e32c02d41161e07020476306e33c02da1e80e07020476326e30c02d41161f07020476326e31c02da1e80f0703c0282a018840001e0000000000000000000703c03b2a018840001f0000000000000000000703c0472a01884000200000000000000000000703c0532a01884000f80000000000000000000703c05f2a01884000210000000000000000000703c06b2a01884000f90000000000000000000701c02801c03b01c04701c05301c05f01c06b,
  0x01b1000000ad980d0220362cd4eb8c8fd51674622639f860f906ea08a7c977400547a9f0ac7db92e14c602036e7331036e696302707700c2a9da0c02036e7332c02cb918400c02036e7335c02cd412f80c02036e7336c02cd412f90c03c0282001067c13cc0000000000000001001203c0392a042b0013cc0000000000000001001203c0442a042b0013ee0000000000000000001203c04f2a042b0013ff0000000000000000001201c02801c03901c04401c04f,
  0x01ae000000c40f08022053a702c1bc2e7246d8027839bc8c43ecb48a28139d2ecbc0350e4c6ca3bc623a02026130036e696303707763004116500902026132c02b4116530902026230c02b4116510902026330c02b4116520903c0282a018840004e0000000000000000000903c0392a01884000510000000000000000000903c0432a018840004f0000000000000000000903c04d2a01884000500000000000000000000901c02801c03901c04301c04d,
  0x01eb000000ef7a0d02205fba6a98277300d23512184ae3fc238c367f731d519f6ec9a63af9d4fbc9a43500ef7a0d0430609aa5b81513378f093ff57bb91296e85366d815e24680d1894e490cdafae188d7214db1b0e453bce2d5340dd921b1ba02016203646e7302707900c8a00005020163c060823b1f1e02016cc060c800440a020170c060cc3dd86b020175c060c606014103c05e200112ff00000a20000000000000000503c06d20010620000000ff000000000000003003c07628010014a0000000000000000000001003c07f200105000014610700ad00000000000101c05e01c06d01c07601c07f01c088,
  0x01c4000002016108726567697374727902716100b2171068020162c004b2171168020163c004d44dc00a020164c004d44dc00d020165c004b217143c020166c00425d1c006020167c00425d1c206020168c004b217163c020169c004cc3dd83e03c03a20010dcd00010000000000000000000603c04320010dcd00020000000000000000000603c04c2a0ca64000010022000000000000006003c055200105000014606200ad00000000000101c00201c01601c01f01c02801c03101c03a01c04301c04c01c055,
  0x01050100000917080114c3a7db5bb487a23ba948a762681a1899980dedc00009170802203862ebe8922407508c2915d29ada122bfdc2385e90e14f0b98145665d794e3470074c208011444c89222bc6f471572a2d95af068d70d82d99d650074c20802207467925ea4afc0a3a7e0e36a640721385ffc85b26b7002b492ea8cf45f4c9a90020161036e69630471706f6e00c2a9da80020162c084b9184080020163c084d412f880020164c084d412f98003c0822001067c13cc0000000000000001012803c0932a042b0013cc0000000000000001012803c09c2a042b0013ee0000000000000000012803c0a52a042b0013ff0000000000000000012801c08201c09301c09c01c0a5,
  0x01cd000000b3bc0a02205916001fff3dc261a7f1b5d81bdc63312697f8b672ae1c8ac7677f6e68977f480208616e7963617374390769726f6e646e73036e657400c3fd400b0209616e79636173743130c031c3fd400c0209616e79636173743233c031c3fd410b0209616e79636173743234c031c3fd410c03c0282a0105b000040000000000000000000b03c0432a0105b000040000000000000000000c03c0542a0105b000050000000000000000000b03c0652a0105b000050000000000000000000c01c02801c04301c05401c065,
  0x011a0100005356080114d99396efcd9b8f4a3b269cd1e9620572fb04f0d00053560802208472c2fdf0a9d2be4a2c1bc4c601c987118e6a815b1242b6985110b7c390e80e00c397080114118c9e561b08fc2c993ca75545ff688ecff4ffcb00c397080220a0a1fa69fa59661ad0501d87885426b7b879c84b19891309db11ea15a92ef2ab0206612d636e6963036e696305717565737400c2a9da130206622d636e6963c089b91840130206632d636e6963c089d412f8130206642d636e6963c089d412f91303c0822001067c13cc0000000000000001001903c0992a042b0013cc0000000000000001001903c0a72a042b0013ee0000000000000000001903c0b52a042b0013ff0000000000000000001901c08201c09901c0a701c0b5,
  0x01f5000000df0c080220048874afa57ae916c96b9b8f92ca789e5750512cdfd1f153c1f71ed26053e7b4020161036e696306726163696e670025d1c00a020162c02a25d1c20a020163c02a25d1c40a02036e733103646e73c02a9c9aa92102036e7332c0519c9aaa2102036e7333c0519c9aab2103c02820010dcd00010000000000000000001003c03b20010dcd00020000000000000000001003c04420010dcd00030000000000000000001003c04d261000a110710000000000000001002103c05c261000a110720000000000000001002103c067261000a110730000000000000001002101c02801c03b01c04401c04d01c05c01c067,
  0x01cd000000f5070a02203863e4a0c36a262785c1703b5cff54cdbd56cd40bb414b45599848ce972e26b90208616e7963617374390769726f6e646e73036e657400c3fd400b0209616e79636173743130c031c3fd400c0209616e79636173743233c031c3fd410b0209616e79636173743234c031c3fd410c03c0282a0105b000040000000000000000000b03c0432a0105b000040000000000000000000c03c0542a0105b000050000000000000000000b03c0652a0105b000050000000000000000000c01c02801c04301c05401c065,
  0x01ad000000c25a0d0220ce6c40407ed006c7a2d34b04f01ea0d825a64fa2418d6e994192ad05ad24ff68020164036e696302667200c200090102016503657874c02ac1b09016020166c039c2926a2e020167c039c200240103c02820010678000c0000000000000000000103c0372a000d7800000102019301760144002203c0442001067c10100011000000000000005303c04d20010678004c0000000000000000000101c02801c03701c04401c04d,
  0x013f0100003c79080220688ba91ca7dc1405423b597ef47becde3188530011815fbb5c55b484eecd9f310204646e7331036e6963047265616400d5f8da4c0204646e7332c02d6731524c0204646e7333c02dd5f8de4c0204646e7334c02d2be6324c0204646e7361c02d9c9a64030204646e7362c02d9c9a65030204646e7363c02d9c9a66030204646e7364c02d9c9a670303c0282a01061804020000000000000000007603c03c2401fd8004020000000000000000007603c0482a01061804060000000000000000007603c0542401fd8004060000000000000000007603c06020010502ad090000000000000000000303c06c200105022eda0000000000000000000303c078261000a110090000000000000000000303c084261000a110100000000000000000000301c02801c03c01c04801c05401c06001c06c01c07801c084,
  0x0145010000ed8f0802209efe92191e0f3f5c0462d0f4fd5283a6227a240d56793adda2a9c654c48401310204646e7331036e69630a7265616c65737461746500d5f8db7b0204646e7332c02d6731537b0204646e7333c02dd5f8df7b0204646e7334c02d2be6337b0204646e7361c02d9c9a64030204646e7362c02d9c9a65030204646e7363c02d9c9a66030204646e7364c02d9c9a670303c0282a01061804030000000000000000012303c0422401fd8004030000000000000000012303c04e2a01061804070000000000000000012303c05a2401fd8004070000000000000000012303c06620010502ad090000000000000000000303c072200105022eda0000000000000000000303c07e261000a110090000000000000000000303c08a261000a110100000000000000000000301c02801c04201c04e01c05a01c06601c07201c07e01c08a,
  0x01420100003dd3080220577657bd827b1e23edd28113992899460b5e0dd5138d49e6978740d303f410590204646e7331036e6963077265616c746f7200d5f8db7a0204646e7332c02d6731537a0204646e7333c02dd5f8df7a0204646e7334c02d2be6337a0204646e7361c02d9c9a64030204646e7362c02d9c9a65030204646e7363c02d9c9a66030204646e7364c02d9c9a670303c0282a01061804030000000000000000012203c03f2401fd8004030000000000000000012203c04b2a01061804070000000000000000012203c0572401fd8004070000000000000000012203c06320010502ad090000000000000000000303c06f200105022eda0000000000000000000303c07b261000a110090000000000000000000303c087261000a110100000000000000000000301c02801c03f01c04b01c05701c06301c06f01c07b01c087,
  0x01fd000000158208022020e276179f6ef711cd63c5e4851c2c3b4917fcff813c708aa902c305b8960484020476306e30036e6963067265616c7479004116182a020476306e31c02d4116192a020476306e32c02d41161a2a020476306e33c02da1e80c2a020476326e30c02d41161b2a020476326e31c02da1e80d2a03c0282a018840001a0000000000000000004203c03e2a018840001b0000000000000000004203c04a2a018840001c0000000000000000004203c0562a01884000f60000000000000000004203c0622a018840001d0000000000000000004203c06e2a01884000f70000000000000000004201c02801c03e01c04a01c05601c06201c06e,
  0x01fe000000c6880802204740fa6aefac02132e2edea2f54dcd7fa2140f06de024524215b7eac2968a225020476306e30036e696307726563697065730041161836020476306e31c02d41161936020476306e32c02d41161a36020476306e33c02da1e80c36020476326e30c02d41161b36020476326e31c02da1e80d3603c0282a018840001a0000000000000000005403c03f2a018840001b0000000000000000005403c04b2a018840001c0000000000000000005403c0572a01884000f60000000000000000005403c0632a018840001d0000000000000000005403c06f2a01884000f70000000000000000005401c02801c03f01c04b01c05701c06301c06f,
  0x01ae0000004edf080220a838978f76dab8c9a0057b3fdddbd9883e760764e5ae1cea04f0961d61a4bb2802026130036e696303726564004116241902026132c02b4116271902026230c02b4116251902026330c02b4116261903c0282a01884000260000000000000000002503c0392a01884000290000000000000000002503c0432a01884000270000000000000000002503c04d2a01884000280000000000000000002501c02801c03901c04301c04d,
  0x01b3000000d903080220425cc5bc7add435160d3c70cba9d545be2ff5466ecc27fb46e520be2ec1f9d0d02026130036e69630872656473746f6e65004116841102026132c02b4116871102026230c02b4116851102026330c02b4116861103c0282a01884000820000000000000000001703c03e2a01884000850000000000000000001703c0482a01884000830000000000000000001703c0522a01884000840000000000000000001701c02801c03e01c04801c052,
  0x01b6000000ac0f0802201a8a582ff781ccfa13c4928d373e2f29e7db7e4027174c68bd7b3e5772ef76c702026130036e69630b726564756d6272656c6c61004116c80102026132c02b4116cb0102026230c02b4116c90102026330c02b4116ca0103c0282a01884000c20000000000000000000103c0412a01884000c50000000000000000000103c04b2a01884000c30000000000000000000103c0552a01884000c40000000000000000000101c02801c04101c04b01c055,
  0x01fc0000001663080220d3ba72f70047888faae7f22dead5112c540fa6aac533dcc55d9ee4920de4cca9020476306e30036e69630572656861620041161c3d020476306e31c02d41161d3d020476306e32c02d41161e3d020476306e33c02da1e80e3d020476326e30c02d41161f3d020476326e31c02da1e80f3d03c0282a018840001e0000000000000000006103c03d2a018840001f0000000000000000006103c0492a01884000200000000000000000006103c0552a01884000f80000000000000000006103c0612a01884000210000000000000000006103c06d2a01884000f90000000000000000006101c02801c03d01c04901c05501c06101c06d,
  0x01fc00000065290802204d05b8cdd95e0502923689dfeb01db93185455e252acab2556af477baaf4865d020476306e30036e69630572656973650041161c3f020476306e31c02d41161d3f020476306e32c02d41161e3f020476306e33c02da1e80e3f020476326e30c02d41161f3f020476326e31c02da1e80f3f03c0282a018840001e0000000000000000006303c03d2a018840001f0000000000000000006303c0492a01884000200000000000000000006303c0552a01884000f80000000000000000006303c0612a01884000210000000000000000006303c06d2a01884000f90000000000000000006301c02801c03d01c04901c05501c06101c06d,
  0x01fd00000041b30802202fe6f73a7337d0492ba6acc3c38ac175e81d13b593136551ad1e95641dd396cd020476306e30036e69630672656973656e0041161c36020476306e31c02d41161d36020476306e32c02d41161e36020476306e33c02da1e80e36020476326e30c02d41161f36020476326e31c02da1e80f3603c0282a018840001e0000000000000000005403c03e2a018840001f0000000000000000005403c04a2a01884000200000000000000000005403c0562a01884000f80000000000000000005403c0622a01884000210000000000000000005403c06e2a01884000f90000000000000000005401c02801c03e01c04a01c05601c06201c06e,
  0x01c5000000ade00801143451296e8f2ffe68eb14b400a686fe1da12e394100ade0080220661fbde636973834f5d417d3897ddf8590461da6f020cfaa4274718dd926c523020161036e6963047265697400c2a9da26020162c044b9184026020163c044d412f826020164c044d412f92603c0422001067c13cc0000000000000001003803c0532a042b0013cc0000000000000001003803c05c2a042b0013ee0000000000000000003803c0652a042b0013ff0000000000000000003801c04201c05301c05c01c065,
  0x01b30000004dd7080220db9d2dcf05506fcb1f593ce8f9b5a0155e68706cb9bdfe7a945074312bc8f89602026130036e69630872656c69616e63650041166c1902026132c02b41166f1902026230c02b41166d1902026330c02b41166e1903c0282a018840006a0000000000000000002503c03e2a018840006d0000000000000000002503c0482a018840006b0000000000000000002503c0522a018840006c0000000000000000002501c02801c03e01c04801c052,
  0x01ac0000000302080220897ea15932fa4407809d32ca7c7da4b0c0e455316a897970f152109f18ce6cd9020161097a646e73636c6f756403636f6d00cb631801020162c02acb631901020163c02acb631a01020164c02acb631b01020166c02a724310cc020167c02a2a3e0210030169c02a24018d0000010000000000000000000103016ac02a24018d0000020000000000000000000101c02801c03e01c04701c05001c05901c06201c06b01c080,
  0x01c5000000dd380801145a37261d09f9158d95c49030c66337f40e66b6a100dd38080220d49a86cdf8411ab763fc46430370a6432392b06e1a6c7f6ababad8e1e85b558b020161036e69630472656e7400c2a9da3f020162c044b918403f020163c044d412f83f020164c044d412f93f03c0422001067c13cc0000000000000001006303c0532a042b0013cc0000000000000001006303c05c2a042b0013ee0000000000000000006303c0652a042b0013ff0000000000000000006301c04201c05301c05c01c065,
  0x01fe0000008350080220348cca06b6eaa7f81247d1b92c72a18cab732c243954080d773507739433202e020476306e30036e69630772656e74616c73004116200e020476306e31c02d4116210e020476306e32c02d4116220e020476306e33c02da1e8100e020476326e30c02d4116230e020476326e31c02da1e8110e03c0282a01884000220000000000000000001403c03f2a01884000230000000000000000001403c04b2a01884000240000000000000000001403c0572a01884000fa0000000000000000001403c0632a01884000250000000000000000001403c06f2a01884000fb0000000000000000001401c02801c03f01c04b01c05701c06301c06f,
  0x01fd0000009904080220c1d26541b3cca74a53db2b5eaba4ad0a17d7f5d06c824b9a658ad2580fa40b28020476306e30036e6963067265706169720041162012020476306e31c02d41162112020476306e32c02d41162212020476306e33c02da1e81012020476326e30c02d41162312020476326e31c02da1e8111203c0282a01884000220000000000000000001803c03e2a01884000230000000000000000001803c04a2a01884000240000000000000000001803c0562a01884000fa0000000000000000001803c0622a01884000250000000000000000001803c06e2a01884000fb0000000000000000001801c02801c03e01c04a01c05601c06201c06e,
  0x01fd0000005ab50802204ff9de3b32f0735045d53641deeb17597de3638b7ef3aa33616d4f52c6aa6b51020476306e30036e6963067265706f72740041161c12020476306e31c02d41161d12020476306e32c02d41161e12020476306e33c02da1e80e12020476326e30c02d41161f12020476326e31c02da1e80f1203c0282a018840001e0000000000000000001803c03e2a018840001f0000000000000000001803c04a2a01884000200000000000000000001803c0562a01884000f80000000000000000001803c0622a01884000210000000000000000001803c06e2a01884000f90000000000000000001801c02801c03e01c04a01c05601c06201c06e,
  0x0101010000d0ea0802209f97cc9c78c5d96051f4689120777eaab356675883b2573d4d2ef769b33dfe34020476306e30036e69630a72657075626c6963616e0041161420020476306e31c02d41161520020476306e32c02d41161620020476306e33c02da1e80a20020476326e30c02d41161720020476326e31c02da1e80b2003c0282a01884000160000000000000000003203c0422a01884000170000000000000000003203c04e2a01884000180000000000000000003203c05a2a01884000f40000000000000000003203c0662a01884000190000000000000000003203c0722a01884000f50000000000000000003201c02801c04201c04e01c05a01c06601c072,
  0x01c5000000626f080114c43af7dec8b165d6c8b832bcb984c2407ef5ed8d00626f0802208f477474f47c387d246b6849202ca0c54c4d5a50d322c79718a98100314d08b7020161036e6963047265737400c2a9da23020162c044b9184023020163c044d412f823020164c044d412f92303c0422001067c13cc0000000000000001003503c0532a042b0013cc0000000000000001003503c05c2a042b0013ee0000000000000000003503c0652a042b0013ff0000000000000000003501c04201c05301c05c01c065,
  0x0101010000f2f8080220a9093436978db7d5ee302879f0bf8d7a84e0a2c0aa132784f92d97d0d4e15992020476306e30036e69630a72657374617572616e740041161c31020476306e31c02d41161d31020476306e32c02d41161e31020476306e33c02da1e80e31020476326e30c02d41161f31020476326e31c02da1e80f3103c0282a018840001e0000000000000000004903c0422a018840001f0000000000000000004903c04e2a01884000200000000000000000004903c05a2a01884000f80000000000000000004903c0662a01884000210000000000000000004903c0722a01884000f90000000000000000004901c02801c04201c04e01c05a01c06601c072,
  0x01f500000069a00802203a9d7b6cf7a12550c281a6ffc5b376b7c93972d8b7607d2c726bbd351d4803d5020161036e6963067265766965770025d1c00a020162c02a25d1c20a020163c02a25d1c40a02036e733103646e73c02a9c9aa92302036e7332c0519c9aaa2302036e7333c0519c9aab2303c02820010dcd00010000000000000000001003c03b20010dcd00020000000000000000001003c04420010dcd00030000000000000000001003c04d261000a110710000000000000001002303c05c261000a110720000000000000001002303c067261000a110730000000000000001002301c02801c03b01c04401c04d01c05c01c067,
  0x01fe000000952f0802205dafa6aa4e5bb71394ff2f91b4423ef5a1c7ba598e359f7afcc8df8c6f68957c020476306e30036e69630772657669657773004116200c020476306e31c02d4116210c020476306e32c02d4116220c020476306e33c02da1e8100c020476326e30c02d4116230c020476326e31c02da1e8110c03c0282a01884000220000000000000000001203c03f2a01884000230000000000000000001203c04b2a01884000240000000000000000001203c0572a01884000fa0000000000000000001203c0632a01884000250000000000000000001203c06f2a01884000fb0000000000000000001201c02801c03f01c04b01c05701c06301c06f,
  0x01b4000000cf600802209f6072a8631cdd4582c80d2372be54f59ae189b5749d5007add985b4f82a65000203616331056e73746c6403636f6d00c02aad1e0203616332c02cc02aae1e0203616333c02cc02aaf1e0203616334c02cc02ab01e03c0282001050001200000000000000000003003c03c2001050001210000000000000000003003c0472001050001220000000000000000003003c0522001050001230000000000000000003001c02801c03c01c04701c052,
  0x01af0000003067080220aa344ed8e0615ff242ec66edea4160269d0ec1d36437965a8d1d1aba6a4d97d802026130036e69630472696368004116881102026132c02b41168b1102026230c02b4116891102026330c02b41168a1103c0282a01884000860000000000000000001703c03a2a01884000890000000000000000001703c0442a01884000870000000000000000001703c04e2a01884000880000000000000000001701c02801c03a01c04401c04e,
  0x01b4000000a072080220ff2e8b0f81588f0266003eb8ac2d8617607069c425dde1bb7734fcc4f93c8d8802026130036e696309726963686172646c69004116882102026132c02b41168b2102026230c02b4116892102026330c02b41168a2103c0282a01884000860000000000000000003303c03f2a01884000890000000000000000003303c0492a01884000870000000000000000003303c0532a01884000880000000000000000003301c02801c03f01c04901c053,
  0x019f0000001b5e08022060ff4ce45e722bc253d21348e4b285a44c77c60f75bfe704b033685bddd4f63d0201610b676d6f7265676973747279036e65740025d1c004020162c02a25d1c20402016bc02a25d1c40402016cc02a25d1c60403c02820010dcd00010000000000000000000403c04020010dcd00020000000000000000000403c05220010dcd00040000000000000000000401c02801c04001c04901c052,
  0x01ae0000004c5d080220aebd50284035552652975d96493c1394e8c652c43ac366f019b0fed4ce3b5abf02026130036e69630372696c004116b41102026132c02b4116b71102026230c02b4116b51102026330c02b4116b61103c0282a01884000ae0000000000000000001703c0392a01884000b10000000000000000001703c0432a01884000af0000000000000000001703c04d2a01884000b00000000000000000001701c02801c03901c04301c04d,
  0x01e700000009a70d0220452f6bd5cb271080aad2425fb762a32d0880d6c706f16ed4d0c8797342a91a8002016103646e7302627200c8db940a020162c02ac8bd290a020163c02ac8c0e90a020164c02ac8db9a0a020165c02ac8e5f80a020166c02ac8db9f0a03c028200112f800060000000000000000001003c037200112f800080000000000000000001003c040200112f8000a0000000000000000001003c049200112f800040000000000000000001003c052200112f800020000000000000000001003c05b200112f8000c0000000000000000001001c02801c03701c04001c04901c05201c05b]
def data10 : List Nat := [
  0x01fa000000fc52080220e5771475fcab4c6df4608be0ede2efd5cfbcfa1405ca0b121c57557b959a40bd020476306e30036e6963037269700041162016020476306e31c02d41162116020476306e32c02d41162216020476306e33c02da1e81016020476326e30c02d41162316020476326e31c02da1e8111603c0282a01884000220000000000000000002203c03b2a01884000230000000000000000002203c0472a01884000240000000000000000002203c0532a01884000fa0000000000000000002203c05f2a01884000250000000000000000002203c06b2a01884000fb0000000000000000002201c02801c03b01c04701c05301c05f01c06b,
  0x01020100008dec08022046ec403715f76178d0d9de32dbf3a5a8f2c09ec5ee6ab4828a72cb58684d2e740205646e732d6305726f746c6402726f00c2000b710206646e732d6174c02e4e6891060206646e732d726f0564656e696302646500515ba16302077072696d617279c02ec0a2101202097365632d646e732d61c02ec0a2101402097365632d646e732d62c02ec1e61fe603c02820010678000e0113000000000000005303c03d20010628045300bb000000000000000603c0612a035e8000000004019201620016001803c0702a035e8000000004019201620016002003c0812a035e8000000005019302300031023001c02801c03d01c04b01c06101c07001c081,
  0x01f500000032e00802200d2b1343a7cd4a96e7631a8a362ed2758ccc2fe719953e466015dde7b098ae06020161036e696306726f636865720025d1c009020162c02a25d1c209020163c02a25d1c40902036e733103646e73c02a9c9a909102036e7332c0519c9a919102036e7333c0519c9a9f9103c02820010dcd00010000000000000000000903c03b20010dcd00020000000000000000000903c04420010dcd00030000000000000000000903c04d261000a110710000000000000000009103c05c261000a110720000000000000000009103c067261000a110730000000000000000009101c02801c03b01c04401c04d01c05c01c067,
  0x01fc000000da4a080220bda2ed5e9099d2e358529c190d03290d396b85fc2a41259c734fb816bc7d5ed6020476306e30036e696305726f636b730041162023020476306e31c02d41162123020476306e32c02d41162223020476306e33c02da1e81023020476326e30c02d41162323020476326e31c02da1e8112303c0282a01884000220000000000000000003503c03d2a01884000230000000000000000003503c0492a01884000240000000000000000003503c0552a01884000fa0000000000000000003503c0612a01884000250000000000000000003503c06d2a01884000fb0000000000000000003501c02801c03d01c04901c05501c06101c06d,
  0x01ea0000006ffd080220beefb4208acee98d66cf5bf93dd9841ac55efa98b003cfe13ff4201e3f8ec300020161036e696305726f64656f0025d1c00a020162c02a25d1c20a020163c02a25d1c40a020178c02a9c9aac52020179c02a9c9aad5202017ac02a9c9aae5203c02820010dcd00010000000000000000001003c03a20010dcd00020000000000000000001003c04320010dcd00030000000000000000001003c04c261000a110740000000000000001008203c055261000a110750000000000000001008203c05e261000a110760000000000000001008201c02801c03a01c04301c04c01c05501c05e,
  0x01b1000000b63e08022036dcb391639dbef1612bffc2103e2ce37d3167bba29aa713fae7ceb540f6eb7102026130036e696306726f676572730041166c2102026132c02b41166f2102026230c02b41166d2102026330c02b41166e2103c0282a018840006a0000000000000000003303c03c2a018840006d0000000000000000003303c0462a018840006b0000000000000000003303c0502a018840006c0000000000000000003301c02801c03c01c04601c050,
  0x013f0100000e0f080220060634b06adeffa11a3a1a3e0a24f1d94ea80d6d5e47e96a7c80466de361dd7c0204646e7331036e696304726f6f6d00d5f8da4d0204646e7332c02d6731524d0204646e7333c02dd5f8de4d0204646e7334c02d2be6324d0204646e7361c02d9c9a64030204646e7362c02d9c9a65030204646e7363c02d9c9a66030204646e7364c02d9c9a670303c0282a01061804020000000000000000007703c03c2401fd8004020000000000000000007703c0482a01061804060000000000000000007703c0542401fd8004060000000000000000007703c06020010502ad090000000000000000000303c06c200105022eda0000000000000000000303c078261000a110090000000000000000000303c084261000a110100000000000000000000301c02801c03c01c04801c05401c06001c06c01c07801c084,
  0x01d4000000e0260d02209aca8316c4ce272097297cf5700e8a66e00ad0c83c4165bfcc90659438dc1794020161036e6963027273005bc7113b020162c02ac3b22002020166c02acc3dd820020167c02a935b0806020168c02a5bc7113c02016cc02ac2926a7203c0282001067c069c0000000000000000005903c0372a000e9000000003000000000000000303c040200105000014603200ad00000000000103c0522001067c069c0000000000000000006003c05b2001067c10100029000000000000005301c02801c03701c04001c04901c05201c05b,
  0x01fa0000001b9b080220a34484076595033b18742005866b79f5c56fecec5a667494e3b179621b44ee4a02076e732d746c643116636861726c6573746f6e726f6164726567697374727903636f6d00d8ef206902076e732d746c6432c030d8ef226902076e732d746c6433c030d8ef246902076e732d746c6434c030d8ef266902076e732d746c6435c030d8ef3c6903c0282001486048020032000000000000006903c0512001486048020034000000000000006903c0602001486048020036000000000000006903c06f2001486048020038000000000000006903c07e2001486048050000000000000000006901c02801c05101c06001c06f01c07e,
  0x01ce00000081e9080220641a0ba027a1027d2fd17b5743931804eebb329b8b514a357d1ef290f159d79f02016103646e73047269706e036e657400c1e88006020162c02ac255fc3e020164c02ac2be7c11020165c02ac1e88e11020166c02ac1e89c1103c0282001067800170000019302320128000603c03d2001067800160000019400850252006203c0462001067800180000019401900124001703c04f2001067800150000019302320142001703c0582001067800140000019302320156001701c02801c03d01c04601c04f01c058,
  0x01ea000000f394080220df8506247c16ff7ee32eb239208b60960639af729379a13c135c52d606e8520d020161036e69630572756762790025d1c00a020162c02a25d1c20a020163c02a25d1c40a020178c02a9c9aac52020179c02a9c9aad5202017ac02a9c9aae5203c02820010dcd00010000000000000000001003c03a20010dcd00020000000000000000001003c04320010dcd00030000000000000000001003c04c261000a110740000000000000001008203c055261000a110750000000000000001008203c05e261000a110760000000000000001008201c02801c03a01c04301c04c01c05501c05e,
  0x01d1000000622b0a0220ec453960c396742efa2ef815fa9c9dba146e838f86f11643704c1630424f4e78009de60a022074fb0b871adf46aab5d49a1eb3b8b0b7dda42c023dd045ec0282b6187b3b4cf7020161036e6963047275687200c2a9da9b020162c050b918409b020163c050d412f89b020164c050d412f99b03c04e2001067c13cc0000000000000001015503c05f2a042b0013cc0000000000000001015503c0682a042b0013ee0000000000000000015503c0712a042b0013ff0000000000000000015501c04e01c05f01c06801c071,
  0x01fa00000091c3080220fb85b407411a748f93e2393fdc4123c2fd6f15d2b8841091d83dff1364726a37020476306e30036e69630372756e0041162028020476306e31c02d41162128020476306e32c02d41162228020476306e33c02da1e81028020476326e30c02d41162328020476326e31c02da1e8112803c0282a01884000220000000000000000004003c03b2a01884000230000000000000000004003c0472a01884000240000000000000000004003c0532a01884000fa0000000000000000004003c05f2a01884000250000000000000000004003c06b2a01884000fb0000000000000000004001c02801c03b01c04701c05301c05f01c06b,
  0x01e60000009b4b080114f5fe9c8f6290eed632676687f03d986f17f27799009b4b080220005f7a73f0609a69ca7736158490764e1a8dc0652ab1d0e327941af0fe67311102036e7331057269637461036f726702727700c43107bc02036e7333c046298a55620203706368c046cc3dd85b0204666f726b0373746807646e736e6f6465036e6574004d48e5fe02056e732d727707616672696e6963c080c4d8a81c03c064200105000014609100ad00000000000103c06f2a0103f000000306000000000000005303c08a200143f801200000000000000000002801c04201c05901c06401c06f01c08a,
  0x01b40000000c03080220542f19df30f2c69f686e697cfbafd7da2afa039cb9d6620169895888188ac1740203616331056e73746c6403636f6d00c02aad1e0203616332c02cc02aae1e0203616333c02cc02aaf1e0203616334c02cc02ab01e03c0282001050001200000000000000000003003c03c2001050001210000000000000000003003c0472001050001220000000000000000003003c0522001050001230000000000000000003001c02801c03c01c04701c052,
  0x019f000000cd19080220a19f9645f1832c3a1550f695dba8f68e26daa32be47967f71b29a4a865d834b80201610b676d6f7265676973747279036e65740025d1c004020162c02a25d1c20402016bc02a25d1c40402016cc02a25d1c60403c02820010dcd00010000000000000000000403c04020010dcd00020000000000000000000403c05220010dcd00040000000000000000000401c02801c04001c04901c052,
  0x015b010000c793080220884f556d23ca7c53d5546b3fe49e2c5aa147b0f6d65c91c096b13c085b3f9a640202633103646e7302736100566fc00902026332c02b566fc40902026931c02bd48a767602026d31c02b56334dd502026d32c02b56331c2502026e31c02bc2926a6602027031c02bcc3dd82902027331c02b256bdfaa02027332c02b256bffaa0203736831c02bd5ec245c03c0282001067c18c800c000000000000000c103c0422001149000000800000000000000011803c04c2a020ce000010030000000000000000503c0562a020ce000010091000000000000000503c0602001067c10100026000000000000005303c06a200105000014604100ad00000000000103c074200116a000013002000000000000000203c07e200116a000023002000000000000000203c0882a020d7000640068000000000000000201c02801c03801c04201c04c01c05601c06001c06a01c07401c07e01c088,
  0x01d50000001ea4080220dfe5f176f88838e618aa262e829ec782074a1440a0ac6d7fdaa2015d6dede1e700b5df080220ad4f2ac407e370565df690b65cc4db568a2f4396403fab61d2dcf21cf7d2d823020161036e696308736161726c616e6400c2a9da61020162c050b9184061020163c050d412f861020164c050d412f96103c04e2001067c13cc0000000000000001009703c0632a042b0013cc0000000000000001009703c06c2a042b0013ee0000000000000000009703c0752a042b0013ff0000000000000000009701c04e01c06301c06c01c075,
  0x013f0100006274080220e7d00d17f0781fe00111cda8875099bb36432f10c3dfefa6e0521ad2090690d10204646e7331036e6963047361666500d5f8da4e0204646e7332c02d6731524e0204646e7333c02dd5f8de4e0204646e7334c02d2be6324e0204646e7361c02d9c9a64030204646e7362c02d9c9a65030204646e7363c02d9c9a66030204646e7364c02d9c9a670303c0282a01061804020000000000000000007803c03c2401fd8004020000000000000000007803c0482a01061804060000000000000000007803c0542401fd8004060000000000000000007803c06020010502ad090000000000000000000303c06c200105022eda0000000000000000000303c078261000a110090000000000000000000303c084261000a110100000000000000000000301c02801c03c01c04801c05401c06001c06c01c07801c084,
  0x01f50000004366080220f76c51279bbd1c4525d952e5d1df46daac5cf3adbc56d772fc1e85983e05e273020161036e6963067361666574790025d1c00a020162c02a25d1c20a020163c02a25d1c40a02036e733103646e73c02a9c9a909402036e7332c0519c9a919402036e7333c0519c9a9f9403c02820010dcd00010000000000000000001003c03b20010dcd00020000000000000000001003c04420010dcd00030000000000000000001003c04d261000a110710000000000000000009403c05c261000a110720000000000000000009403c067261000a110730000000000000000009401c02801c03b01c04401c04d01c05c01c067,
  0x01b9000000cbfe080220fb0b3a130e7587e2aab1f675f289d87ad4105a64a14e346e9d18f359e3b0f7410204746c6431036e69630673616b75726100672f02030204746c6432c02d756885120204746c6433c02d411628090204746c6435c02d4116288903c02820010dda00000000000000000000000303c03e2001021830010000000000000000000303c04a2a01884001ba0000000000000000000903c0562a01884001ba0000000000000000013701c02801c03e01c04a01c056,
  0x01fb000000e2960802203aafea8a5f3796ff0e2a4754c784aa2dd72f34853afcdb1dbd7571c7673c88cf020476306e30036e69630473616c650041161430020476306e31c02d41161530020476306e32c02d41161630020476306e33c02da1e80a30020476326e30c02d41161730020476326e31c02da1e80b3003c0282a01884000160000000000000000004803c03c2a01884000170000000000000000004803c0482a01884000180000000000000000004803c0542a01884000f40000000000000000004803c0602a01884000190000000000000000004803c06c2a01884000f50000000000000000004801c02801c03c01c04801c05401c06001c06c,
  0x01fc000000509508022015beee88cb2059844adc8b06944fc2424a7618726b390a08fc21fde2ef6daa07020476306e30036e69630573616c6f6e0041161c3a020476306e31c02d41161d3a020476306e32c02d41161e3a020476306e33c02da1e80e3a020476326e30c02d41161f3a020476326e31c02da1e80f3a03c0282a018840001e0000000000000000005803c03d2a018840001f0000000000000000005803c0492a01884000200000000000000000005803c0552a01884000f80000000000000000005803c0612a01884000210000000000000000005803c06d2a01884000f90000000000000000005801c02801c03d01c04901c05501c06101c06d,
  0x01b40000000f3008022012c5eb19d3471e5bd6bc69d1e38b1b37b26ec950e0367e158df6221293b178060203616331056e73746c6403636f6d00c02aad1e0203616332c02cc02aae1e0203616333c02cc02aaf1e0203616334c02cc02ab01e03c0282001050001200000000000000000003003c03c2001050001210000000000000000003003c0472001050001220000000000000000003003c0522001050001230000000000000000003001c02801c03c01c04701c052,
  0x01c50000004afa070220144b461cb8ad9212307c53173ef72139a418eab09997fc366484335d0aae91fe02036e73310773616d73756e670e63656e7472616c6e69632d646e7303636f6d00c2a9da7002036e7332c02cb918407002036e7333c02cd412f87002036e7334c02cd412f97003c0282001067c13cc0000000000000001011203c04d2a042b0013cc0000000000000001011203c0582a042b0013ee0000000000000000011203c0632a042b0013ff0000000000000000011201c02801c04d01c05801c063,
  0x01ec0000005c5f08022001ed10d00e4fdf8bb9bf3338bfe2ef3ad80bab54270ce9a42941b6e3dd87781d020161036e69630773616e6476696b0025d1c009020162c02a25d1c209020163c02a25d1c409020178c02a9c9aac52020179c02a9c9aad5202017ac02a9c9aae5203c02820010dcd00010000000000000000000903c03c20010dcd00020000000000000000000903c04520010dcd00030000000000000000000903c04e261000a110740000000000000001008203c057261000a110750000000000000001008203c060261000a110760000000000000001008201c02801c03c01c04501c04e01c05701c060,
  0x01f40000004e1f080220ac19fb9aa365946aa64f8872782e80af68f6bf988f9de2e31901434849fa8d5e020161036e69630f73616e6476696b636f726f6d616e740025d1c009020162c02a25d1c209020163c02a25d1c409020178c02a9c9aac52020179c02a9c9aad5202017ac02a9c9aae5203c02820010dcd00010000000000000000000903c04420010dcd00020000000000000000000903c04d20010dcd00030000000000000000000903c056261000a110740000000000000001008203c05f261000a110750000000000000001008203c068261000a110760000000000000001008201c02801c04401c04d01c05601c05f01c068,
  0x01b40000000b91080220d523e97b164182385d06c3abdd620f12de54a40e9705490a25681affe384affe0203616331056e73746c6403636f6d00c02aad1e0203616332c02cc02aae1e0203616333c02cc02aaf1e0203616334c02cc02ab01e03c0282001050001200000000000000000003003c03c2001050001210000000000000000003003c0472001050001220000000000000000003003c0522001050001230000000000000000003001c02801c03c01c04701c052,
  0x01cd000000e3320a0220c54138af7a4e7bede0d15ffd010ba47792ded7d0729728c814821bd4c06495b60208616e7963617374390769726f6e646e73036e657400c3fd400b0209616e79636173743130c031c3fd400c0209616e79636173743233c031c3fd410b0209616e79636173743234c031c3fd410c03c0282a0105b000040000000000000000000b03c0432a0105b000040000000000000000000c03c0542a0105b000050000000000000000000b03c0652a0105b000050000000000000000000c01c02801c04301c05401c065,
  0x01fb000000789d08022024db28de74191d33588c628d306be3457278f59ceca8104d2a81cfa7fcd8d6e6020476306e30036e6963047361726c004116203f020476306e31c02d4116213f020476306e32c02d4116223f020476306e33c02da1e8103f020476326e30c02d4116233f020476326e31c02da1e8113f03c0282a01884000220000000000000000006303c03c2a01884000230000000000000000006303c0482a01884000240000000000000000006303c0542a01884000fa0000000000000000006303c0602a01884000250000000000000000006303c06c2a01884000fb0000000000000000006301c02801c03c01c04801c05401c06001c06c,
  0x01f20000004e97080220245081f2a99002cfba295d87b98465b3b4a2df0023364e577292c15103fcc0a4020161036e6963037361730025d1c009020162c02a25d1c209020163c02a25d1c40902036e733103646e73c02a9c9aa92702036e7332c04e9c9aaa2702036e7333c04e9c9aab2703c02820010dcd00010000000000000000000903c03820010dcd00020000000000000000000903c04120010dcd00030000000000000000000903c04a261000a110710000000000000001002703c059261000a110720000000000000001002703c064261000a110730000000000000001002701c02801c03801c04101c04a01c05901c064,
  0x013f01000019d3080220e81fa1af4ea9f0ef852f21b1d175fa87b6758a90d293b77d4326edbff8bf79a50204646e7331036e6963047361766500d5f8da4f0204646e7332c02d6731524f0204646e7333c02dd5f8de4f0204646e7334c02d2be6324f0204646e7361c02d9c9a64030204646e7362c02d9c9a65030204646e7363c02d9c9a66030204646e7364c02d9c9a670303c0282a01061804020000000000000000007903c03c2401fd8004020000000000000000007903c0482a01061804060000000000000000007903c0542401fd8004060000000000000000007903c06020010502ad090000000000000000000303c06c200105022eda0000000000000000000303c078261000a110090000000000000000000303c084261000a110100000000000000000000301c02801c03c01c04801c05401c06001c06c01c07801c084,
  0x01e900000082db0802203daca03d08ef7cfdea7e7f42231f411f3b56b9c8ca2cbb2d6d6a70b63652fa79020161036e6963047361786f0025d1c009020162c02a25d1c209020163c02a25d1c409020178c02a9c9aac52020179c02a9c9aad5202017ac02a9c9aae5203c02820010dcd00010000000000000000000903c03920010dcd00020000000000000000000903c04220010dcd00030000000000000000000903c04b261000a110740000000000000001008203c054261000a110750000000000000001008203c05d261000a110760000000000000001008201c02801c03901c04201c04b01c05401c05d,
  0x018a00000044e308022027f59686a15b09dc8293fac9c31e5be51abf214e1e9cd5b21cbe50f0f311c78002036e73310a616e7963617374646e7302637a00b9266c6c02036e7332c02cb91cc2c20203706368036e696302736200cc3dd81f03c0282a00fea0dead0000000000000000beef03c04b200105000014603100ad00000000000101c02801c04001c04b,
  0x01ae0000007b7608022070193b642aefe13270d7ff55a3fd26bcb1c6cdf4d43b04f694509de430381f4b02026130036e696303736269004116b00902026132c02b4116b30902026230c02b4116b10902026330c02b4116b20903c0282a01884000aa0000000000000000000903c0392a01884000ad0000000000000000000903c0432a01884000ab0000000000000000000903c04d2a01884000ac0000000000000000000901c02801c03901c04301c04d,
  0x01d0000000bfb2080220dbdb6a00e2aac5f3c8ee371b1e46f69da8bf7b985f837cdb9fac21beee2f7fcf00daf8080220ef6d326e9513ea4c07f99a08afcdc5f3d9e3f6eb73000af57d6fc3deca1ca31c020161036e69630373627300c2a9da7f020162c050b918407f020163c050d412f87f020164c050d412f97f03c04e2001067c13cc0000000000000001012703c05e2a042b0013cc0000000000000001012703c0672a042b0013ee0000000000000000012703c0702a042b0013ff0000000000000000012701c04e01c05e01c06701c070,
  0x012601000009eb0802208293fa3ac08be770a400dde4f250dc6bf1046f34430be12e65c15bf2f482b26c02026130056363746c640b6166696c6961732d6e737404696e666f00c7fe3b0102026132c02bc7f9740102026230056363746c640b6166696c6961732d6e7374036f726700c7fe3c0102026232c055c7f97c0102026330c02bc7fe3d0102026430c055c7fe3e0102036e7331036e6963027363002956393603c0282001050000250000000000000000000103c0482001050000440000000000000000000103c0522001050000260000000000000000000103c07120010500004c0000000000000000000103c07b2001050000270000000000000000000103c0852001050000280000000000000000000101c02801c04801c05201c07101c07b01c08501c08f,
  0x01b40000002dab0802202433227153341429fd6dc9cc654844e9614c0bf4d408c39bbe0149e1716438de0203616331056e73746c6403636f6d00c02aad1e0203616332c02cc02aae1e0203616333c02cc02aaf1e0203616334c02cc02ab01e03c0282001050001200000000000000000003003c03c2001050001210000000000000000003003c0472001050001220000000000000000003003c0522001050001230000000000000000003001c02801c03c01c04701c052,
  0x01aa000000514108022016bff89dd2faf9ac06221f6de0e206ed57fec2e29316779e30789d7e00a5bd2f020161036e696303736362007a9b1733020162c02acb9f4033020163c02ac2000123020164c02aae8b692503c02820010c3820000183000000000000001703c03824053340e0113000000000000000001703c0412001067800040000000000000000002303c04a2607f1801a020003000000000000000501c02801c03801c04101c04a,
  0x0196000000c500080220ecce16b1454e232528979c94910636efa06e034a776e7a730e681dd9d4d39fe602016103646e73036e69630a736368616566666c657200c200192202016dc02ac2001a0e02016ec02ac200180e03c0282001067800200000000000000000003403c0432001067c10e00000000000000000001403c04c2001067800240000000000000000001401c02801c04301c04c,
  0x01ec000000af36080220d1351c74070e9e2b0dce546b4814df0adff4e289b1f5f3c6fddddd6a8ca1e33b020161036e6963077363686d6964740025d1c009020162c02a25d1c209020163c02a25d1c409020178c02a9c9aac52020179c02a9c9aad5202017ac02a9c9aae5203c02820010dcd00010000000000000000000903c03c20010dcd00020000000000000000000903c04520010dcd00030000000000000000000903c04e261000a110740000000000000001008203c057261000a110750000000000000001008203c060261000a110760000000000000001008201c02801c03c01c04501c04e01c05701c060,
  0x01b7000000e13108022024261732a51a4d33adc9a823ee1e38139bcabbda2f4c2eb7f6c8ceb3480b64b602026130036e69630c7363686f6c617273686970730041168c1102026132c02b41168f1102026230c02b41168d1102026330c02b41168e1103c0282a018840008a0000000000000000001703c0422a018840008d0000000000000000001703c04c2a018840008b0000000000000000001703c0562a018840008c0000000000000000001701c02801c04201c04c01c056,
  0x01fd00000084ee08022030e847d55bbc147f8706cf9ee2b50478f41a143e2cbb738f7214ddd59cfb31ae020476306e30036e6963067363686f6f6c004116142b020476306e31c02d4116152b020476306e32c02d4116162b020476306e33c02da1e80a2b020476326e30c02d4116172b020476326e31c02da1e80b2b03c0282a01884000160000000000000000004303c03e2a01884000170000000000000000004303c04a2a01884000180000000000000000004303c0562a01884000f40000000000000000004303c0622a01884000190000000000000000004303c06e2a01884000f50000000000000000004301c02801c03e01c04a01c05601c06201c06e,
  0x01fd000000806508022076b7d6a448a72d947cf0b045429535113822fad4dad7b120910ea0d4f5e835aa020476306e30036e696306736368756c650041161444020476306e31c02d41161544020476306e32c02d41161644020476306e33c02da1e80a44020476326e30c02d41161744020476326e31c02da1e80b4403c0282a01884000160000000000000000006803c03e2a01884000170000000000000000006803c04a2a01884000180000000000000000006803c0562a01884000f40000000000000000006803c0622a01884000190000000000000000006803c06e2a01884000f50000000000000000006801c02801c03e01c04a01c05601c06201c06e,
  0x0108010000b8f507011496d2ae596e2d9525c309c0e69714ae8ed377d5ee00b8f5070220cbc33d32a5ff8943aa5736e68e234c7e73829d2942dc5d26a6bb278aa579ef5700c8a1070114cc70f9ee2a2e0ae7c59e1dba91cc81265e8861ce00c8a107022039d5a41f51dc9478526a8eceb14c11095d7eee368191936ef8519b15d2f0aab7020161036e6963077363687761727a00c2a9da63020162c084b9184063020163c084d412f863020164c084d412f96303c0822001067c13cc0000000000000001009903c0962a042b0013cc0000000000000001009903c09f2a042b0013ee0000000000000000009903c0a82a042b0013ff0000000000000000009901c08201c09601c09f01c0a8,
  0x01f6000000c0220802206712663d49aa8efcb6c832b978feb020f0ebbb05b16058c64ef387f4c24de401020161036e696307736369656e63650025d1c00a020162c02a25d1c20a020163c02a25d1c40a02036e733103646e73c02a9c9aa92902036e7332c0529c9aaa2902036e7333c0529c9aab2903c02820010dcd00010000000000000000001003c03c20010dcd00020000000000000000001003c04520010dcd00030000000000000000001003c04e261000a110710000000000000001002903c05d261000a110720000000000000001002903c068261000a110730000000000000001002901c02801c03c01c04501c04e01c05d01c068,
  0x01cd00000070c90a0220a99fb1213fc07299a57251f57238bc0f796d7aa311624cf49ddcacac08c1dc3d0208616e7963617374390769726f6e646e73036e657400c3fd400b0209616e79636173743130c031c3fd400c0209616e79636173743233c031c3fd410b0209616e79636173743234c031c3fd410c03c0282a0105b000040000000000000000000b03c0432a0105b000040000000000000000000c03c0542a0105b000050000000000000000000b03c0652a0105b000050000000000000000000c01c02801c04301c05401c065,
  0x01cb000002027364056363746c640761757468646e730472697065036e657400c100096d02037063680373697302736400cc3dd8610204616e7331c026c41da6860204616e73310563616e6172c02ac41db40e0204616e7332c0266682fb0a0204616e7332c044c41da40e02056e732d736407616672696e6963c018c4d8a81a03c0022001067c00e00000000000000000010903c022200105000014609700ad00000000000103c069200143f801200000000000000000002601c00201c02201c03301c03f01c05101c05d01c069,
  0x0162010000e80f08022067a8e06fcefdd9397f77f26c41ade4ec142f299bcfa1827f0ef8fd87f2f63022020161026e7302736500c024906b020162c02ac024856b020163c02ac024876b020166c02ac0473535020167c02a82ef0572020169c02ac2926a1602016dc02ac2000b70020178c02ad56c1904020179c02ab99fc59602017ac02ab99fc69603c0282a0103f000000301000000000000005303c0362001067c254c0301000000000000005303c03f2001067c25540301000000000000005303c0482a0103f000000305000000000000005303c051200106b0000e0003000000000000000103c05a2001067c10100005000000000000005303c06320010678000e0112000000000000005303c06c2001067c124ce000000000000000000403c0752620010a80aa0000000000000000015003c07e2620010a80ab0000000000000000015001c02801c03601c03f01c04801c05101c05a01c06301c06c01c07501c07e,
  0x01fa0000008e91080220afaec406996df5555fc4365c07c7c74de82fe7cf5264fc5fad9d1ab948f3da2802076e732d746c643116636861726c6573746f6e726f6164726567697374727903636f6d00d8ef206902076e732d746c6432c030d8ef226902076e732d746c6433c030d8ef246902076e732d746c6434c030d8ef266902076e732d746c6435c030d8ef3c6903c0282001486048020032000000000000006903c0512001486048020034000000000000006903c0602001486048020036000000000000006903c06f2001486048020038000000000000006903c07e2001486048050000000000000000006901c02801c05101c06001c06f01c07e,
  0x01cd0000009cca0a02208531b10a28c981d28f0f412dbe6a7985effe40bf0efc8f2f80d45f85770c1a8a0208616e7963617374390769726f6e646e73036e657400c3fd400b0209616e79636173743130c031c3fd400c0209616e79636173743233c031c3fd410b0209616e79636173743234c031c3fd410c03c0282a0105b000040000000000000000000b03c0432a0105b000040000000000000000000c03c0542a0105b000050000000000000000000b03c0652a0105b000050000000000000000000c01c02801c04301c05401c065,
  0x01410100007792080220e15c59f280c66d3582c2a0b218728143e1c6db5acf0a4a17dc8858dbcb0c1cd70204646e7331036e69630673656375726500d5f8da500204646e7332c02d673152500204646e7333c02dd5f8de500204646e7334c02d2be632500204646e7361c02d9c9a64030204646e7362c02d9c9a65030204646e7363c02d9c9a66030204646e7364c02d9c9a670303c0282a01061804020000000000000000008003c03e2401fd8004020000000000000000008003c04a2a01061804060000000000000000008003c0562401fd8004060000000000000000008003c06220010502ad090000000000000000000303c06e200105022eda0000000000000000000303c07a261000a110090000000000000000000303c086261000a110100000000000000000000301c02801c03e01c04a01c05601c06201c06e01c07a01c086,
  0x01af00000037460802202859485c57b2b929084427b8c2b444200fa44011015aa6bf005146582947a257020161036e696308736563757269747900c2a9da44020162c02ab9184044020165c02ad412f844020166c02ad412f94403c0282001067c13cc0000000000000001006803c03d2a042b0013cc0000000000000001006803c0462a042b0013ee0000000000000000006803c04f2a042b0013ff0000000000000000006801c02801c03d01c04601c04f,
  0x01e9000000f973080220e3c3a590cdfcc251b77cd4adf685fe3cce8706a0aaecd5421294b9ff2ddf8b48020161036e6963047365656b0025d1c009020162c02a25d1c209020163c02a25d1c409020178c02a9c9aac52020179c02a9c9aad5202017ac02a9c9aae5203c02820010dcd00010000000000000000000903c03920010dcd00020000000000000000000903c04220010dcd00030000000000000000000903c04b261000a110740000000000000001008203c054261000a110750000000000000001008203c05d261000a110760000000000000001008201c02801c03901c04201c04b01c05401c05d,
  0x01eb000000f9a308022067ffd642d56c519c3a3f78f2396dcc30d237a0cd5f5a32ddff33834128698472020161036e69630673656c6563740025d1c009020162c02a25d1c209020163c02a25d1c409020178c02a9c9aac52020179c02a9c9aad5202017ac02a9c9aae5203c02820010dcd00010000000000000000000903c03b20010dcd00020000000000000000000903c04420010dcd00030000000000000000000903c04d261000a110740000000000000001008203c056261000a110750000000000000001008203c05f261000a110760000000000000001008201c02801c03b01c04401c04d01c05601c05f,
  0x01b40000009c54080220f580b1e1f989e14eb37da8cd7201254150e4c28f95ca0d1db7822a78c93eaf170203616331056e73746c6403636f6d00c02aad1e0203616332c02cc02aae1e0203616333c02cc02aaf1e0203616334c02cc02ab01e03c0282001050001200000000000000000003003c03c2001050001210000000000000000003003c0472001050001220000000000000000003003c0522001050001230000000000000000003001c02801c03c01c04701c052,
  0x01ff0000008f7708022046f51f49699733c685b1a338969594396ba5e24d76f6011149c20be7a3b757fc020476306e30036e69630873657276696365730041161425020476306e31c02d41161525020476306e32c02d41161625020476306e33c02da1e80a25020476326e30c02d41161725020476326e31c02da1e80b2503c0282a01884000160000000000000000003703c0402a01884000170000000000000000003703c04c2a01884000180000000000000000003703c0582a01884000f40000000000000000003703c0642a01884000190000000000000000003703c0702a01884000f50000000000000000003701c02801c04001c04c01c05801c06401c070,
  0x01ea000000ff7c0802204c4105485919cc132cea83e201b0678f71cc7db260e8be86de560a8a1864951d020161036e696305736576656e0025d1c009020162c02a25d1c209020163c02a25d1c409020178c02a9c9aac52020179c02a9c9aad5202017ac02a9c9aae5203c02820010dcd00010000000000000000000903c03a20010dcd00020000000000000000000903c04320010dcd00030000000000000000000903c04c261000a110740000000000000001008203c055261000a110750000000000000001008203c05e261000a110760000000000000001008201c02801c03a01c04301c04c01c05501c05e,
  0x01ae0000005ff2080220f058b69dc4842232e352dbe1485dfc257ad1627aee9f4bf4decd967307e30b1d02026130036e696303736577004116bc1902026132c02b4116bf1902026230c02b4116bd1902026330c02b4116be1903c0282a01884000b60000000000000000002503c0392a01884000b90000000000000000002503c0432a01884000b70000000000000000002503c04d2a01884000b80000000000000000002501c02801c03901c04301c04d,
  0x01e8000000d2910802201bc21cfa8ce05af75007ae4e83667dc97eb6939b9253cbaa0d124c18d49f09d6020161036e6963037365780025d1c00a020162c02a25d1c20a020163c02a25d1c40a020178c02a9c9aac52020179c02a9c9aad5202017ac02a9c9aae5203c02820010dcd00010000000000000000001003c03820010dcd00020000000000000000001003c04120010dcd00030000000000000000001003c04a261000a110740000000000000001008203c053261000a110750000000000000001008203c05c261000a110760000000000000001008201c02801c03801c04101c04a01c05301c05c,
  0x01b7000000a41a0d0220a0e135ac7e6ffb2cad1574c08c837bb5d5a4e34c60356498389e69b55943d58c02036e73310b756e697265676973747279036e6574004060010102036e73320b756e69726567697374727904696e666f004060020102036e7333c02cb99fc50302036e7334c046b99fc60303c0282620005740000001000000000000000103c05d2620010a80aa0000000000000000000303c0682620010a80ab0000000000000000000301c02801c04201c05d01c068,
  0x01040100001ef3070114e348a086a9bc4c214c16fc529e64bbee506739c4001ef3070220e3b4e6b0b3447c29949813283b4308546b1bb895fa1e2a39364f918be581bf0100c84a070114bf4509a051e4cb1206784fb08211043be36a495b00c84a0702204be38a9fc56f65e77125940e4ffdaccffc39380f3e74bca025b0206eb8e8628d020161036e69630373667200c2a9da64020162c084b9184064020163c084d412f864020164c084d412f96403c0822001067c13cc0000000000000001010003c0922a042b0013cc0000000000000001010003c09b2a042b0013ee0000000000000000010003c0a42a042b0013ff0000000000000000010001c08201c09201c09b01c0a4,
  0x01ed000000b648080220b9e9522b9e345fd54e73e8ebf3d3cfff9a09189fed03f5106d8ee3e345fb80b502036e73340561706e6963036e657400ca0c1f3502037063680773677a6f6e657302736700cc3dd83902056473616e790573676e6963c048781dfd0b02066473616e7932c057b99fc5aa02066473616e7933c057b99fc6aa03c02820010dd800120000000000000000005303c03c200105000014605700ad00000000000103c05120010dcd00070000000000000000001103c0642620010a80aa0000000000000000017003c0722620010a80ab0000000000000000017001c02801c03c01c05101c06401c072,
  0x01ad000000d801080220ba339ad6e081dad292a3f473cbdd5adc53a0222769a7c6125f506dd6a813787f02026130036e6963027368004116a00902026132c02b4116a30902026230c02b4116a10902026330c02b4116a20903c0282a018840009e0000000000000000000903c0382a01884000a10000000000000000000903c0422a018840009f0000000000000000000903c04c2a01884000a00000000000000000000901c02801c03801c04201c04c,
  0x01b40000004b2d0802201eb085c06ea9a775a07b82aef3435f047a624a705046f3cdb64843f410abb5a80203616331056e73746c6403636f6d00c02aad1e0203616332c02cc02aae1e0203616333c02cc02aaf1e0203616334c02cc02ab01e03c0282001050001200000000000000000003003c03c2001050001210000000000000000003003c0472001050001220000000000000000003003c0522001050001230000000000000000003001c02801c03c01c04701c052,
  0x019f0000000f200802209fbcf0afcb45e677cb42680ff35defd79f8accacaaa47df92cfd08e73a8afcb60201610b676d6f7265676973747279036e65740025d1c004020162c02a25d1c20402016bc02a25d1c40402016cc02a25d1c60403c02820010dcd00010000000000000000000403c04020010dcd00020000000000000000000403c05220010dcd00040000000000000000000401c02801c04001c04901c052,
  0x01af0000007264080220a5d4cf180ae979a32069cfc69304ad40f0bd7e0b6cfbd0b5611e49d1540edba402026130036e69630473686177004116581102026132c02b41165b1102026230c02b4116591102026330c02b41165a1103c0282a01884000560000000000000000001703c03a2a01884000590000000000000000001703c0442a01884000570000000000000000001703c04e2a01884000580000000000000000001701c02801c03a01c04401c04e,
  0x01b4000000d776080220be8c4ab62ce5f9ac998c8c1383340f7800a43a6a903f061791b19af6f6dbb9d50203616331056e73746c6403636f6d00c02aad1e0203616332c02cc02aae1e0203616333c02cc02aaf1e0203616334c02cc02ab01e03c0282001050001200000000000000000003003c03c2001050001210000000000000000003003c0472001050001220000000000000000003003c0522001050001230000000000000000003001c02801c03c01c04701c052,
  0x01ac000000ece4080220dd38466778b19a58a550b69e4c5b0acefc7aab903b766a805deab97f282c913e020161026e73036e696304736869610048003107020162c02a482a710702036e73310a616e7963617374646e7302637a00b9266c6c02036e7332c049b91cc2c203c028262001710a0100ad000000000000000703c03c262001710d0100dc000000000000000703c0452a00fea0dead0000000000000000beef01c02801c03c01c04501c05d,
  0x01b2000000d321080220b4dd9094c19c5a3be8d6921d695f16cd6412258fa8302e5d7879405e2c0ef7dc02026130036e6963077368696b736861004116202102026132c02b4116232102026230c02b4116212102026330c02b4116222103c0282a01884000220000000000000000003303c03d2a01884000250000000000000000003303c0472a01884000230000000000000000003303c0512a01884000240000000000000000003301c02801c03d01c04701c051,
  0x01fc000000e76a080220e6883ee7853289aff66b9090429f6573077638bac3b5a6595b0c16108abfbe9c020476306e30036e69630573686f65730041161817020476306e31c02d41161917020476306e32c02d41161a17020476306e33c02da1e80c17020476326e30c02d41161b17020476326e31c02da1e80d1703c0282a018840001a0000000000000000002303c03d2a018840001b0000000000000000002303c0492a018840001c0000000000000000002303c0552a01884000f60000000000000000002303c0612a018840001d0000000000000000002303c06d2a01884000f70000000000000000002301c02801c03d01c04901c05501c06101c06d,
  0x019f000000c60d08022030f44f9e79f1119aebed349d3ec34f7aedd83a58f1e706d8303c3bbfe83bc7ec0201610b676d6f7265676973747279036e65740025d1c004020162c02a25d1c20402016bc02a25d1c40402016cc02a25d1c60403c02820010dcd00010000000000000000000403c04020010dcd00020000000000000000000403c05220010dcd00040000000000000000000401c02801c04001c04901c052,
  0x01ff0000007cf0080220372b561bd71aad22ecf3c93491046fb1b6d5d23a25b899baedecb89a4c038c91020476306e30036e69630873686f7070696e670041162013020476306e31c02d41162113020476306e32c02d41162213020476306e33c02da1e81013020476326e30c02d41162313020476326e31c02da1e8111303c0282a01884000220000000000000000001903c0402a01884000230000000000000000001903c04c2a01884000240000000000000000001903c0582a01884000fa0000000000000000001903c0642a01884000250000000000000000001903c0702a01884000fb0000000000000000001901c02801c04001c04c01c05801c06401c070,
  0x019d0000006bad080220e9706714550cf565afcb114fda3dd0a4f105db670e12074a1a26b71c34f6912502036e73310874656c65696e666f02636e00673d3c0102036e73320974656c65696e666f6f03636f6d00673d3d0102036e7333c02c673d3e0102036e7334c042673d3f0103c02824027d8000000000000000000000000103c03e24027d8088880000000000000000000101c02801c03e01c05601c061,
  0x01fb000000ab640802207b05d715b0b79a0a0844d3283f0115d1dcbae5c3d98eec45f17df09bc5963904020476306e30036e69630473686f770041161c2b020476306e31c02d41161d2b020476306e32c02d41161e2b020476306e33c02da1e80e2b020476326e30c02d41161f2b020476326e31c02da1e80f2b03c0282a018840001e0000000000000000004303c03c2a018840001f0000000000000000004303c0482a01884000200000000000000000004303c0542a01884000f80000000000000000004303c0602a01884000210000000000000000004303c06c2a01884000f90000000000000000004301c02801c03c01c04801c05401c06001c06c,
  0x01b30000004723080220127adbfe87ea3d320525990c4783db7eafb3fc10de688eb7b593836b6ce02cca02026130036e69630873686f7774696d65004116440102026132c02b4116470102026230c02b4116450102026330c02b4116460103c0282a01884000420000000000000000000103c03e2a01884000450000000000000000000103c0482a01884000430000000000000000000103c0522a01884000440000000000000000000101c02801c03e01c04801c052,
  0x01e70000000f92080220386978c3c04a878b03f0f16a4bf27f2a0d2c2491310826854ae2f8f42948fed202016203646e7302736900c2f9042c020166c02ac2926a3e020168c02acc3dd836020169c02ac200191602016bc02ab99fc50b02016cc02ab99fc60b03c0282001147080000053000000000000004403c0372001067c10100015000000000000005303c040200105000014605400ad00000000000103c0492001067800200000000000000000002203c0522620010a80aa0000000000000000001103c05b2620010a80ab0000000000000000001101c02801c03701c04001c04901c05201c05b,
  0x013f0100005c8f08022004017ec2e893a546bd7d73575404015a5c904b9c4dbb33b2995ae37b4df0903b0204646e7331036e69630473696c6b00d5f8da3b0204646e7332c02d6731523b0204646e7333c02dd5f8de3b0204646e7334c02d2be6323b0204646e7361c02d9c9a64030204646e7362c02d9c9a65030204646e7363c02d9c9a66030204646e7364c02d9c9a670303c0282a01061804020000000000000000005903c03c2401fd8004020000000000000000005903c0482a01061804060000000000000000005903c0542401fd8004060000000000000000005903c06020010502ad090000000000000000000303c06c200105022eda0000000000000000000303c078261000a110090000000000000000000303c084261000a110100000000000000000000301c02801c03c01c04801c05401c06001c06c01c07801c084,
  0x01af0000009931080220b177daef81c0ebd0c85dba9092550eb8d14333806e1db4c2c44ac9ece76432a502026130036e69630473696e610041168c2102026132c02b41168f2102026230c02b41168d2102026330c02b41168e2103c0282a018840008a0000000000000000003303c03a2a018840008d0000000000000000003303c0442a018840008b0000000000000000003303c04e2a018840008c0000000000000000003301c02801c03a01c04401c04e,
  0x01fe0000002b2108022028f8fd0b9b11a1947d4dd5a1190aba72a1a1f30b7fd3752e8261defbfe17b84b020476306e30036e69630773696e676c65730041162039020476306e31c02d41162139020476306e32c02d41162239020476306e33c02da1e81039020476326e30c02d41162339020476326e31c02da1e8113903c0282a01884000220000000000000000005703c03f2a01884000230000000000000000005703c04b2a01884000240000000000000000005703c0572a01884000fa0000000000000000005703c0632a01884000250000000000000000005703c06f2a01884000fb0000000000000000005701c02801c03f01c04b01c05701c06301c06f,
  0x01c5000000c9dc08011490ddbeeeb973b0f8719ed763fb6eede97c73abf500c9dc080220883175f6f5c68ea81563b62d1b2b79b6a997d60dc6e20cc70afd0cd6b7e82f62020161036e6963047369746500c2a9da3d020162c044b918403d020165c044d412f83d020166c044d412f93d03c0422001067c13cc0000000000000001006103c0532a042b0013cc0000000000000001006103c05c2a042b0013ee0000000000000000006103c0652a042b0013ff0000000000000000006101c04201c05301c05c01c065,
  0x010001000042270d0220ccef4dfbddb2886951a928b83f52be462ed1f63553dcaddd433935fc41a218af020178036e6963026e6f0080270828020179c02ac14b041602017ac02a9e26088502026e6e07756e696e657474c02e9e2600b502036e6163c02e802702160206736572766572056e6f726475036e657400c10afc1303c028200107000000412f000000000000004003c037200108c082000001000000000000000203c040200107000000052d015800380008013303c04920010700000005030000000000aa530203c05b2001070000000102000000000000aa5303c0662001094800040002000000000000001901c02801c03701c04001c04901c05b01c066,
  0x010601000009140d02203e7e4f60eccc4ad8f96c654563265c9a4e56b9f1ac998e88e1cf8150ff1a520502016103746c6402736b00c2002d01020162c02a54f56001020163c02ac30c9f01020165c02ac2a9da10020166c02ab9184010020167c02ad412f810020168c02ad412f91003c0282001067800700000000000000000000103c0372001067800900000000000000000000103c04020010678009c0000000000000000000103c0492001067c13cc0000000000000001001603c0522a042b0013cc0000000000000001001603c05b2a042b0013ee0000000000000000001603c0642a042b0013ff0000000000000000001601c02801c03701c04001c04901c05201c05b01c064,
  0x01ae000000f419080220d421064a672f86a83a4c7fe005ce8cd164fffdfab3e64415498c3413ba46fe1002026130036e696303736b69004116541102026132c02b4116571102026230c02b4116551102026330c02b4116561103c0282a01884000520000000000000000001703c0392a01884000550000000000000000001703c0432a01884000530000000000000000001703c04d2a01884000540000000000000000001701c02801c03901c04301c04d,
  0x01d10000001fef0802205b2d4845730f45f86f38d3fd6271b5e212bde653a75fe7a3bca1267e0429d386005e280802203eaebed2323950252487a9e9f953157a1bbe8b0b7d82906fcd2816c623778b0a020161036e696304736b696e00c2a9da76020162c050b9184076020163c050d412f876020164c050d412f97603c04e2001067c13cc0000000000000001011803c05f2a042b0013cc0000000000000001011803c0682a042b0013ee0000000000000000011803c0712a042b0013ff0000000000000000011801c04e01c05f01c06801c071,
  0x01b40000002775080220f09afb6032ad0269337a282d137041e961e6284bd581ea5cf27c300dab97b6290203616331056e73746c6403636f6d00c02aad1e0203616332c02cc02aae1e0203616333c02cc02aaf1e0203616334c02cc02ab01e03c0282001050001200000000000000000003003c03c2001050001210000000000000000003003c0472001050001220000000000000000003003c0522001050001230000000000000000003001c02801c03c01c04701c052,
  0x01f400000011a7080220fd50adcd586d68b58ad4081bfa7566e3e438f0cbe991ceed726ad4485b62d97b020161036e696305736b7970650025d1c009020162c02a25d1c209020163c02a25d1c40902036e733103646e73c02a9c9a909702036e7332c0509c9a919702036e7333c0509c9a9f9703c02820010dcd00010000000000000000000903c03a20010dcd00020000000000000000000903c04320010dcd00030000000000000000000903c04c261000a110710000000000000000009703c05b261000a110720000000000000000009703c066261000a110730000000000000000009701c02801c03a01c04301c04c01c05b01c066,
  0x0126000002036e7331056e656f697003636f6d0033c30ef902036e7332c0062d53292601c00201c016,
  0x01b0000000b5d6080220fc817bc7bcc7edcc930cf73483fde9a88386e85674d7cf438e36ed5d00cdf74f02026130036e696305736c696e670041166c0902026132c02b41166f0902026230c02b41166d0902026330c02b41166e0903c0282a018840006a0000000000000000000903c03b2a018840006d0000000000000000000903c0452a018840006b0000000000000000000903c04f2a018840006c0000000000000000000901c02801c03b01c04501c04f,
  0x019500000202736d056363746c640761757468646e730472697065036e657400c100096e0203646e73076f6d6e6977617902736d00c2b7400a0203646e7308696e74656c636f6dc02ec2b7400b02036e73330d74656c65636f6d6974616c6961c02ec2001b0c03c0022001067c00e00000000000000000011003c04b200106780028000000c200b70040001201c00201c02201c03701c04b,
  0x01ac00000028010802201fc272fd0bb0d9ae922348c5c63f401a9e1fba71c8cb452af5df5e4e005237cf020161036e696305736d61727400c2a9da46020162c02ab9184046020163c02ad412f846020164c02ad412f94603c0282001067c13cc0000000000000001007003c03a2a042b0013cc0000000000000001007003c0432a042b0013ee0000000000000000007003c04c2a042b0013ff0000000000000000007001c02801c03a01c04301c04c,
  0x01400100008891080220be86ee1b42b863c89283bf8eb0b013d6c16db2b0702a3c28299eb318540fbeaa0204646e7331036e696305736d696c6500d5f8da510204646e7332c02d673152510204646e7333c02dd5f8de510204646e7334c02d2be632510204646e7361c02d9c9a64030204646e7362c02d9c9a65030204646e7363c02d9c9a66030204646e7364c02d9c9a670303c0282a01061804020000000000000000008103c03d2401fd8004020000000000000000008103c0492a01061804060000000000000000008103c0552401fd8004060000000000000000008103c06120010502ad090000000000000000000303c06d200105022eda0000000000000000000303c079261000a110090000000000000000000303c085261000a110100000000000000000000301c02801c03d01c04901c05501c06101c06d01c07901c085,
  0x01cb0000008fdb0d0220992ed3a8cd111420e26fd9a8b8885c3beafa13507eb0606449aea1dadc21b25f02026e73047563616402736e00c4015f010202736e056363746c640761757468646e730472697065036e657400c100096f02036e733107736f6e6174656cc030d59a400b02056e732d736e036e696302667200c2000901020c63656e7376726e733030303103697264c0765bcb209303c0392001067c00e00000000000000000011103c06c20010678000c0000000000000000000101c02801c03901c05901c06c01c07f,
  0x018e000000a4250d022076868912d2c9ac062cc7b403ad3f32daffeb37cf4c220bf74e196fb75f7c861c020164036e696302667200c200090102016603657874c02ac2926a2e020167c039c200240103c02820010678000c0000000000000000000103c0372001067c10100011000000000000005303c04420010678004c0000000000000000000101c02801c03701c044,
  0x01450000020164036e696302736f00c4d8a836020165c004cc3dd86503c002200143f801200000000000000000005403c011200105000014610100ad00000000000101c00201c011,
  0x01fd0000006dff08022088ef6e5b2aae60cccf9f9585d03f0f2bff9a57c613cf3edcf01e34734886f0d3020476306e30036e696306736f63636572004116203a020476306e31c02d4116213a020476306e32c02d4116223a020476306e33c02da1e8103a020476326e30c02d4116233a020476326e31c02da1e8113a03c0282a01884000220000000000000000005803c03e2a01884000230000000000000000005803c04a2a01884000240000000000000000005803c0562a01884000fa0000000000000000005803c0622a01884000250000000000000000005803c06e2a01884000fb0000000000000000005801c02801c03e01c04a01c05601c06201c06e,
  0x01fd0000009f70080220683895edf086360b6bc8f2e6674bfe94735df6f88a6efeff850b905595383af8020476306e30036e696306736f6369616c0041161429020476306e31c02d41161529020476306e32c02d41161629020476306e33c02da1e80a29020476326e30c02d41161729020476326e31c02da1e80b2903c0282a01884000160000000000000000004103c03e2a01884000170000000000000000004103c04a2a01884000180000000000000000004103c0562a01884000f40000000000000000004103c0622a01884000190000000000000000004103c06e2a01884000f50000000000000000004101c02801c03e01c04a01c05601c06201c06e,
  0x019f00000086500802207a7cde44c2c68ce4d0440e7f9f01a1a0358ede57a9e007ae01ff94cb0506513a0201610b676d6f7265676973747279036e65740025d1c004020162c02a25d1c20402016bc02a25d1c40402016cc02a25d1c60403c02820010dcd00010000000000000000000403c04020010dcd00020000000000000000000403c05220010dcd00040000000000000000000401c02801c04001c04901c052,
  0x01ff00000034db080220adbc7a3c20e6f0b685c47bfa610899b783dc463921f47bc231a6e29147e80902020476306e30036e696308736f667477617265004116200a020476306e31c02d4116210a020476306e32c02d4116220a020476306e33c02da1e8100a020476326e30c02d4116230a020476326e31c02da1e8110a03c0282a01884000220000000000000000001003c0402a01884000230000000000000000001003c04c2a01884000240000000000000000001003c0582a01884000fa0000000000000000001003c0642a01884000250000000000000000001003c0702a01884000fb0000000000000000001001c02801c04001c04c01c05801c06401c070,
  0x01ac00000061ea080220ce87e0735a424d4601fdb8d7691ff1b916c54c6ce367a9a66cce7f88ec8a9e97020161097a646e73636c6f756403636f6d00cb631801020162c02acb631901020163c02acb631a01020164c02acb631b01020166c02a724310cc020167c02a2a3e0210030169c02a24018d0000010000000000000000000103016ac02a24018d0000020000000000000000000101c02801c03e01c04701c05001c05901c06201c06b01c080]
def data11 : List Nat := [
  0x01fc000000da560802209fe65d323fa0cef5b7c9180df5e5eb8cb03d9e8253fe0089e85e4bb58a57aa5d020476306e30036e696305736f6c61720041161433020476306e31c02d41161533020476306e32c02d41161633020476306e33c02da1e80a33020476326e30c02d41161733020476326e31c02da1e80b3303c0282a01884000160000000000000000005103c03d2a01884000170000000000000000005103c0492a01884000180000000000000000005103c0552a01884000f40000000000000000005103c0612a01884000190000000000000000005103c06d2a01884000f50000000000000000005101c02801c03d01c04901c05501c06101c06d,
  0x01000100005a5b0802201e10218cd63ab2aaa5a7c6fd02ccb36a543eac55a4185e24e9ed4e15a866e2b0020476306e30036e696309736f6c7574696f6e730041162002020476306e31c02d41162102020476306e32c02d41162202020476306e33c02da1e81002020476326e30c02d41162302020476326e31c02da1e8110203c0282a01884000220000000000000000000203c0412a01884000230000000000000000000203c04d2a01884000240000000000000000000203c0592a01884000fa0000000000000000000203c0652a01884000250000000000000000000203c0712a01884000fb0000000000000000000201c02801c04101c04d01c05901c06501c071,
  0x01f3000000fb6e08022068d1d29041b564b8582f81d7409d912122ac68e2e23bf9167f3135621790fb71020161036e696304736f6e670025d1c00a020162c02a25d1c20a020163c02a25d1c40a02036e733103646e73c02a9c9a909902036e7332c04f9c9a919902036e7333c04f9c9a9f9903c02820010dcd00010000000000000000001003c03920010dcd00020000000000000000001003c04220010dcd00030000000000000000001003c04b261000a110710000000000000000009903c05a261000a110720000000000000000009903c065261000a110730000000000000000009901c02801c03901c04201c04b01c05a01c065,
  0x019f0000007b5c080220f783850c3c82680a57c926b79098ee5de999772dcf6745a56fcab20ce9330de50201610b676d6f7265676973747279036e65740025d1c004020162c02a25d1c20402016bc02a25d1c40402016cc02a25d1c60403c02820010dcd00010000000000000000000403c04020010dcd00020000000000000000000403c05220010dcd00040000000000000000000401c02801c04001c04901c052,
  0x01fa00000093c70802202c8fd7c33b59f39069aae096b65ed29b10bbe11de874833fe20fc54a64815d2f02076e732d746c643116636861726c6573746f6e726f6164726567697374727903636f6d00d8ef206902076e732d746c6432c030d8ef226902076e732d746c6433c030d8ef246902076e732d746c6434c030d8ef266902076e732d746c6435c030d8ef3c6903c0282001486048020032000000000000006903c0512001486048020034000000000000006903c0602001486048020036000000000000006903c06f2001486048020038000000000000006903c07e2001486048050000000000000000006901c02801c05101c06001c06f01c07e,
  0x01ae0000002e690802205f494f6958801e119d309bf6cd627c42d1fd04055703aeaac2c2d1b98db00b9702026130036e696303737061004116301102026132c02b4116331102026230c02b4116311102026330c02b4116321103c0282a018840002e0000000000000000001703c0392a01884000310000000000000000001703c0432a018840002f0000000000000000001703c04d2a01884000300000000000000000001701c02801c03901c04301c04d,
  0x01c6000000acdb08011436acb68b734dfe465cc1112f9dac08b8b66627cc00acdb080220a82d8ed2b07d66d6e7af375e0e44b22a82f4479ad45f5d8e1859df6fc170e67c020161036e696305737061636500c2a9da33020162c044b9184033020165c044d412f833020166c044d412f93303c0422001067c13cc0000000000000001005103c0542a042b0013cc0000000000000001005103c05d2a042b0013ee0000000000000000005103c0662a042b0013ff0000000000000000005101c04201c05401c05d01c066,
  0x01cd0000007eeb0a02203b39adb8057a67441e2b11fdd23417e52f7f5b17e134f12027b3c382535972da0208616e7963617374390769726f6e646e73036e657400c3fd400b0209616e79636173743130c031c3fd400c0209616e79636173743233c031c3fd410b0209616e79636173743234c031c3fd410c03c0282a0105b000040000000000000000000b03c0432a0105b000040000000000000000000c03c0542a0105b000050000000000000000000b03c0652a0105b000050000000000000000000c01c02801c04301c05401c065,
  0x013f010000e9b3080220116c15183e96a172850b479253520c519cfc0d28be0f3154df01298e1bfc1cc20204646e7331036e69630473706f7400d5f8da520204646e7332c02d673152520204646e7333c02dd5f8de520204646e7334c02d2be632520204646e7361c02d9c9a64030204646e7362c02d9c9a65030204646e7363c02d9c9a66030204646e7364c02d9c9a670303c0282a01061804020000000000000000008203c03c2401fd8004020000000000000000008203c0482a01061804060000000000000000008203c0542401fd8004060000000000000000008203c06020010502ad090000000000000000000303c06c200105022eda0000000000000000000303c078261000a110090000000000000000000303c084261000a110100000000000000000000301c02801c03c01c04801c05401c06001c06c01c07801c084,
  0x0123000002036e7331027372036e657400c8019f9402036e7332c006c802a21e01c00201c013,
  0x01ae00000082660802208414f09570e69f8ff6099ef53136aa4304a85fe21bcb1f65e937af7c5e5133cd02026130036e69630373726c004116502102026132c02b4116532102026230c02b4116512102026330c02b4116522103c0282a018840004e0000000000000000003303c0392a01884000510000000000000000003303c0432a018840004f0000000000000000003303c04d2a01884000500000000000000000003301c02801c03901c04301c04d,
  0x01e7000000ab2908011465fb691da6eb488ed99195e7609837f787eafc4a00ab29080220f85d36a2e056ff8cbb8dc79c748e4ec1e862c4f739891f9595669aa3384a252d020162026e7305747a6e6963026f7202747a00c4d8a2460203706368036e696302737300cc3dd88202056e732d737307616672696e6963036e657400c4d8a81b020573736e69630a616e7963617374646e7302637a00b91cc2c202c082b9266c6c03c042200143f800e00001000000000000007003c059200105000014613000ad00000000000103c06a200143f801200000000000000000002701c04201c05901c06a01c082,
  0x01ae000002036e7331076261686e686f66036e657400c3b2a0020206646e732d7374c0064f8877140206776573742d3206646e732d75730273740022da21e7020b736f757468656173742d3206646e732d6175c034343f528903c002200109b000010104025056fffeb75c5103c018200109b000010601025056fffeb7004603c02626001f140015cb00c08fbaebbf79c73003c03d2406da1c03064700d0cfa4f8f1c7249e01c00201c01801c02601c03d,
  0x01b000000029590802200bdb59ef7db2dbdd103cf1cda4ecbddd6befc6f4d074ef177311fc3358c1494102026130036e69630573746164610041169c1902026132c02b41169f1902026230c02b41169d1902026330c02b41169e1903c0282a018840009a0000000000000000002503c03b2a018840009d0000000000000000002503c0452a018840009b0000000000000000002503c04f2a018840009c0000000000000000002501c02801c03b01c04501c04f,
  0x01f60000008a7f080220632af1f936fb38d84fced84eaace443d47d287f3346e8cd4c456d8db70efcf72020161036e696307737461706c65730025d1c009020162c02a25d1c209020163c02a25d1c40902036e733103646e73c02a9c9aa94f02036e7332c0529c9aaa4f02036e7333c0529c9aab4f03c02820010dcd00010000000000000000000903c03c20010dcd00020000000000000000000903c04520010dcd00030000000000000000000903c04e261000a110710000000000000001004f03c05d261000a110720000000000000001004f03c068261000a110730000000000000001004f01c02801c03c01c04501c04e01c05d01c068,
  0x01af000000e9e0080220306c152bc34676bf135928882fc21c5702bf37c893f71d4df51e3a84ad6b62e102026130036e69630473746172004116380902026132c02b41163b0902026230c02b4116390902026330c02b41163a0903c0282a01884000360000000000000000000903c03a2a01884000390000000000000000000903c0442a01884000370000000000000000000903c04e2a01884000380000000000000000000901c02801c03a01c04401c04e,
  0x01b4000000199c080220cef021e759c80743ac2b871f39db1aac7bfb542244b74ebd5c98776f5d4d844a02026130036e696309737461746562616e6b004116b00102026132c02b4116b30102026230c02b4116b10102026330c02b4116b20103c0282a01884000aa0000000000000000000103c03f2a01884000ad0000000000000000000103c0492a01884000ab0000000000000000000103c0532a01884000ac0000000000000000000101c02801c03f01c04901c053,
  0x01f8000000fd630802201ed8a8c0e5102a11cc8659d9d0543ea7ef5f44b63d553a4aa78d46d398ff5356020161036e69630973746174656661726d0025d1c009020162c02a25d1c209020163c02a25d1c40902036e733103646e73c02a9c9a909a02036e7332c0549c9a919a02036e7333c0549c9a9f9a03c02820010dcd00010000000000000000000903c03e20010dcd00020000000000000000000903c04720010dcd00030000000000000000000903c050261000a110710000000000000000009a03c05f261000a110720000000000000000009a03c06a261000a110730000000000000000009a01c02801c03e01c04701c05001c05f01c06a,
  0x01c4000000a4f20801148956d12e91dc98337231ba5b16f75ad76605194700a4f208022079a9d1a91d2dd8f3bca16221e6ff11e7e5e852e63d0c3756f6e73f94296b12ab020161036e69630373746300c2a9da1d020162c044b918401d020163c044d412f81d020164c044d412f91d03c0422001067c13cc0000000000000001002903c0522a042b0013cc0000000000000001002903c05b2a042b0013ee0000000000000000002903c0642a042b0013ff0000000000000000002901c04201c05201c05b01c064,
  0x01c9000000f925080114b6fd1903a8aabaf134a517661da8b7f1687f334b00f9250802205a2c21b0d982a47ef075dcca0378175e917e9bca8128e4ffd52e31f627f29151020161036e69630873746367726f757000c2a9da2e020162c044b918402e020163c044d412f82e020164c044d412f92e03c0422001067c13cc0000000000000001004603c0572a042b0013cc0000000000000001004603c0602a042b0013ee0000000000000000004603c0692a042b0013ff0000000000000000004601c04201c05701c06001c069,
  0x01b40000007009080220cd787970d0a7de33bc49589fb72d41bde6db32c4470c93c170eb8f2d2597812802026130036e69630973746f636b686f6c6d004116dc2902026132c02b4116df2902026230c02b4116dd2902026330c02b4116de2903c0282a01884000d60000000000000000004103c03f2a01884000d90000000000000000004103c0492a01884000d70000000000000000004103c0532a01884000d80000000000000000004101c02801c03f01c04901c053,
  0x01c8000000c52c070114ad942d7faef7c429fee5497a67162643e96e184100c52c070220bf2260b22c8c9630dc3e5ce22130c4fb97edd6b27805a05f8f526b951b465156020161036e69630773746f7261676500c2a9da37020162c044b9184037020163c044d412f837020164c044d412f93703c0422001067c13cc0000000000000001005503c0562a042b0013cc0000000000000001005503c05f2a042b0013ee0000000000000000005503c0682a042b0013ff0000000000000000005501c04201c05601c05f01c068,
  0x01c60000003fd6080114c6d41fb11396e2b908bd82add46457daa960ec23003fd6080220e59827295e51c4f46d5208ed454bcd78dd6ffa49f01bd203b24e1380aa535675020161036e69630573746f726500c2a9da2d020162c044b918402d020165c044d412f82d020166c044d412f92d03c0422001067c13cc0000000000000001004503c0542a042b0013cc0000000000000001004503c05d2a042b0013ee0000000000000000004503c0662a042b0013ff0000000000000000004501c04201c05401c05d01c066,
  0x01f500000016390802206b26a93e218e96c47e1e3984823bde21105bfeb4ea6d0cd82e144e24d5d2a0e0020161036e69630673747265616d0025d1c00a020162c02a25d1c20a020163c02a25d1c40a02036e733103646e73c02a9c9aa93202036e7332c0519c9aaa3202036e7333c0519c9aab3203c02820010dcd00010000000000000000001003c03b20010dcd00020000000000000000001003c04420010dcd00030000000000000000001003c04d261000a110710000000000000001003203c05c261000a110720000000000000001003203c067261000a110730000000000000001003201c02801c03b01c04401c04d01c05c01c067,
  0x01fd000000054a080220d4289b105c9cb81d1ea631fe723a7dd3e9a52fb649b4a0a40c4890a9faa62846020476306e30036e69630673747564696f0041161c03020476306e31c02d41161d03020476306e32c02d41161e03020476306e33c02da1e80e03020476326e30c02d41161f03020476326e31c02da1e80f0303c0282a018840001e0000000000000000000303c03e2a018840001f0000000000000000000303c04a2a01884000200000000000000000000303c0562a01884000f80000000000000000000303c0622a01884000210000000000000000000303c06e2a01884000f90000000000000000000301c02801c03e01c04a01c05601c06201c06e,
  0x01ea000000cc49080220d306e55ce201ddd1ea5fd896b2fa4389a25f3b9d71e2f91076b65552d421acff020161036e69630573747564790025d1c00a020162c02a25d1c20a020163c02a25d1c40a020178c02a9c9aac52020179c02a9c9aad5202017ac02a9c9aae5203c02820010dcd00010000000000000000001003c03a20010dcd00020000000000000000001003c04320010dcd00030000000000000000001003c04c261000a110740000000000000001008203c055261000a110750000000000000001008203c05e261000a110760000000000000001008201c02801c03a01c04301c04c01c05501c05e,
  0x01fc000000fc16080220ae493c6907eab77640ded4690ae2035a5a613d78edca8814f9314334e4c19943020476306e30036e6963057374796c65004116202e020476306e31c02d4116212e020476306e32c02d4116222e020476306e33c02da1e8102e020476326e30c02d4116232e020476326e31c02da1e8112e03c0282a01884000220000000000000000004603c03d2a01884000230000000000000000004603c0492a01884000240000000000000000004603c0552a01884000fa0000000000000000004603c0612a01884000250000000000000000004603c06d2a01884000fb0000000000000000004601c02801c03d01c04901c05501c06101c06d,
  0x01ce0000005a02080220aa41ed8b657359b5fd0e2756aadb10871cc9010509a6c86e5df744a7914f9e4e02016103646e73047269706e036e657400c1e88006020162c02ac255fc3e020164c02ac2be7c11020165c02ac1e88e11020166c02ac1e89c1103c0282001067800170000019302320128000603c03d2001067800160000019400850252006203c0462001067800180000019401900124001703c04f2001067800150000019302320142001703c0582001067800140000019302320156001701c02801c03d01c04601c04f01c058,
  0x01ea00000084340802203bc39b543789de80c38841624e4195136cc4cf04f47ab5a09d052998e9f374ec020161036e6963057375636b730025d1c00a020162c02a25d1c20a020163c02a25d1c40a020178c02a9c9aac52020179c02a9c9aad5202017ac02a9c9aae5203c02820010dcd00010000000000000000001003c03a20010dcd00020000000000000000001003c04320010dcd00030000000000000000001003c04c261000a110740000000000000001008203c055261000a110750000000000000001008203c05e261000a110760000000000000001008201c02801c03a01c04301c04c01c05501c05e,
  0x01ff0000002ae8080220ac8aff181900b2a9ac0736c0e254c3e847e240705467109b03cfc22839a30405020476306e30036e696308737570706c696573004116143b020476306e31c02d4116153b020476306e32c02d4116163b020476306e33c02da1e80a3b020476326e30c02d4116173b020476326e31c02da1e80b3b03c0282a01884000160000000000000000005903c0402a01884000170000000000000000005903c04c2a01884000180000000000000000005903c0582a01884000f40000000000000000005903c0642a01884000190000000000000000005903c0702a01884000f50000000000000000005901c02801c04001c04c01c05801c06401c070,
  0x01fd000000abb508022081a7a79353c68ff3d449a1b307f82944686706043cfde44f65b22b396ff9ac5e020476306e30036e696306737570706c790041161834020476306e31c02d41161934020476306e32c02d41161a34020476306e33c02da1e80c34020476326e30c02d41161b34020476326e31c02da1e80d3403c0282a018840001a0000000000000000005203c03e2a018840001b0000000000000000005203c04a2a018840001c0000000000000000005203c0562a01884000f60000000000000000005203c0622a018840001d0000000000000000005203c06e2a01884000f70000000000000000005201c02801c03e01c04a01c05601c06201c06e,
  0x01fe000000e9380802205c789108f88d370a56e1c616c42694a492fa0b3ed7cafb7f9565777e1b85ad96020476306e30036e696307737570706f72740041161405020476306e31c02d41161505020476306e32c02d41161605020476306e33c02da1e80a05020476326e30c02d41161705020476326e31c02da1e80b0503c0282a01884000160000000000000000000503c03f2a01884000170000000000000000000503c04b2a01884000180000000000000000000503c0572a01884000f40000000000000000000503c0632a01884000190000000000000000000503c06f2a01884000f50000000000000000000501c02801c03f01c04b01c05701c06301c06f,
  0x01e9000000a56d080220f4d78e449d9bf4c11668df78a7a3f5747797ef8dc5304270ef0574716c0c803c020161036e696304737572660025d1c00a020162c02a25d1c20a020163c02a25d1c40a020178c02a9c9aac52020179c02a9c9aad5202017ac02a9c9aae5203c02820010dcd00010000000000000000001003c03920010dcd00020000000000000000001003c04220010dcd00030000000000000000001003c04b261000a110740000000000000001008203c054261000a110750000000000000001008203c05d261000a110760000000000000001008201c02801c03901c04201c04b01c05401c05d,
  0x01fe0000005cc208022026e3f51a86c852653ef6b6fdd89566f7d9faab6985201274b0abe95b530e400e020476306e30036e69630773757267657279004116181f020476306e31c02d4116191f020476306e32c02d41161a1f020476306e33c02da1e80c1f020476326e30c02d41161b1f020476326e31c02da1e80d1f03c0282a018840001a0000000000000000003103c03f2a018840001b0000000000000000003103c04b2a018840001c0000000000000000003103c0572a01884000f60000000000000000003103c0632a018840001d0000000000000000003103c06f2a01884000f70000000000000000003101c02801c03f01c04b01c05701c06301c06f,
  0x019f0000008495080220dc04eaae9d4e306eec2a2d1ebd1f146b8e555ff28e0924ee22e36555ac44c3860201610b676d6f7265676973747279036e65740025d1c004020162c02a25d1c20402016bc02a25d1c40402016cc02a25d1c60403c02820010dcd00010000000000000000000403c04020010dcd00020000000000000000000403c05220010dcd00040000000000000000000401c02801c04001c04901c052,
  0x01f40000020161066c6163746c64036f726700c800440a02026e73027575036e6574008927010302026e7303646e7302627200c8a0000502027376056363746c640761757468646e730472697065c01bc100097002036369720372656402737600a8f3fe010203736972c05683648ca20206617574683032c015c60601520207646e732d657874036e696302637200c86b52db03c00228010014a0000000000000000000001003c025200112ff00000a20000000000000000503c0352001067c00e00000000000000000011203c07c200113c770040110000000000000021901c00201c01501c02501c03501c05201c06301c06e01c07c,
  0x01b4000000b42d080220f8f63257d53d748eac6844c412a246db125e330f646d32922fd947e9f6a1fac20203616331056e73746c6403636f6d00c02aad1e0203616332c02cc02aae1e0203616333c02cc02aaf1e0203616334c02cc02ab01e03c0282001050001200000000000000000003003c03c2001050001210000000000000000003003c0472001050001220000000000000000003003c0522001050001230000000000000000003001c02801c03c01c04701c052,
  0x013d0100003eb80a0220b974351f3624a85d4304c09a005203d8cbd8ff0d790095413b19c31538f1ae31020167036e696305737769737300c3fd4009020175c02ac3fd410902046e7331350672636f646530036e657400c200190f0208616e7963617374390769726f6e646e73c04fc3fd400b0209616e79636173743130c062c3fd400c0209616e79636173743233c062c3fd410b0209616e79636173743234c062c3fd410c03c0282a0105b000040000000000000000000903c03a2a0105b000050000000000000000000903c0432001067800200000000000000000001503c0592a0105b000040000000000000000000b03c0712a0105b000040000000000000000000c03c0822a0105b000050000000000000000000b03c0932a0105b000050000000000000000000c01c02801c03a01c04301c05901c07101c08201c093,
  0x016e00000047cb0802204347640217ef8340c38cf28327de8bf0c8b3db7d30e5d62f04c29af24738f83f02036e7331026e7302737800b99fc50a02036e7332c02cb99fc60a03c0282620010a80aa0000000000000000001003c0382620010a80ab0000000000000000001001c02801c038,
  0x0174000002027379056363746c640761757468646e730472697065036e657400c100097102036e733103746c64027379005289c855020370636807616e7963617374c026cc3dd84703c0022001067c00e00000000000000000011303c033200105000014607100ad00000000000101c00201c02201c033,
  0x01eb000000947e080220a5cd19204ca09e64b3a91aa6bf40955e4b7553cf8f288b15d4ce93b4a0b428be020161036e6963067379646e65790025d1c00a020162c02a25d1c20a020163c02a25d1c40a020178c02a9c9aac52020179c02a9c9aad5202017ac02a9c9aae5203c02820010dcd00010000000000000000001003c03b20010dcd00020000000000000000001003c04420010dcd00030000000000000000001003c04d261000a110740000000000000001008203c056261000a110750000000000000001008203c05f261000a110760000000000000001008201c02801c03b01c04401c04d01c05601c05f,
  0x01fe00000025a2080220a45f6041847622b7a24e0b41aea1bbc2e618e952e2555206776295edcc9ef77d020476306e30036e69630773797374656d730041161426020476306e31c02d41161526020476306e32c02d41161626020476306e33c02da1e80a26020476326e30c02d41161726020476326e31c02da1e80b2603c0282a01884000160000000000000000003803c03f2a01884000170000000000000000003803c04b2a01884000180000000000000000003803c0572a01884000f40000000000000000003803c0632a01884000190000000000000000003803c06f2a01884000f50000000000000000003801c02801c03f01c04b01c05701c06301c06f,
  0x017900000202737a056363746c640761757468646e730472697065036e657400c100097202036e7331057369737061036f726702737a00294de80402037269700370736703636f6d00931c002703c0022001067c00e00000000000000000011403c0392001041800010000000000000000003901c00201c02201c039,
  0x01e80000002fad080220bf58e40ea4764e2e24254dcb7a365d90aca26773209827ee0a41be128ca1f977020161036e6963037461620025d1c009020162c02a25d1c209020163c02a25d1c409020178c02a9c9aac52020179c02a9c9aad5202017ac02a9c9aae5203c02820010dcd00010000000000000000000903c03820010dcd00020000000000000000000903c04120010dcd00030000000000000000000903c04a261000a110740000000000000001008203c053261000a110750000000000000001008203c05c261000a110760000000000000001008201c02801c03801c04101c04a01c05301c05c,
  0x01f5000000b3230802201d7533b060b299291e2c060fe110169784881081bbc7738aa4b7a774f4dc4746020161036e6963067461697065690025d1c00a020162c02a25d1c20a020163c02a25d1c40a02036e733103646e73c02a9c9a909c02036e7332c0519c9a919c02036e7333c0519c9a9f9c03c02820010dcd00010000000000000000001003c03b20010dcd00020000000000000000001003c04420010dcd00030000000000000000001003c04d261000a110710000000000000000009c03c05c261000a110720000000000000000009c03c067261000a110730000000000000000009c01c02801c03b01c04401c04d01c05c01c067,
  0x013f010000f8d50802206eafd932eddd45279072054c3cdfcf9cf04ee9cc5847de8f7ae6442a3ecac1170204646e7331036e69630474616c6b00d5f8da530204646e7332c02d673152530204646e7333c02dd5f8de530204646e7334c02d2be632530204646e7361c02d9c9a64030204646e7362c02d9c9a65030204646e7363c02d9c9a66030204646e7364c02d9c9a670303c0282a01061804020000000000000000008303c03c2401fd8004020000000000000000008303c0482a01061804060000000000000000008303c0542401fd8004060000000000000000008303c06020010502ad090000000000000000000303c06c200105022eda0000000000000000000303c078261000a110090000000000000000000303c084261000a110100000000000000000000301c02801c03c01c04801c05401c06001c06c01c07801c084,
  0x01d70000006100080220c47f5f58bd93065d880f55461845eb6bc3678800951e8c787c96eab93ef04d8f00f3d60802209f3d7ceb441cd4dac22efcccf5e79d238163e139ab368abddaa1029302a77bcb02026130036e69630674616f62616f004116341102026132c0514116371102026230c0514116351102026330c0514116361103c04e2a01884000320000000000000000001703c0622a01884000350000000000000000001703c06c2a01884000330000000000000000001703c0762a01884000340000000000000000001701c04e01c06201c06c01c076,
  0x01f5000000fb5f0802200168137c6e180963663c74f30e4b581847c1d17e674b59aa1cb2c76d671d5ed3020161036e6963067461726765740025d1c009020162c02a25d1c209020163c02a25d1c40902036e733103646e73c02a9c9a909e02036e7332c0519c9a919e02036e7333c0519c9a9f9e03c02820010dcd00010000000000000000000903c03b20010dcd00020000000000000000000903c04420010dcd00030000000000000000000903c04d261000a110710000000000000000009e03c05c261000a110720000000000000000009e03c067261000a110730000000000000000009e01c02801c03b01c04401c04d01c05c01c067,
  0x01b40000006813080220efbeada1f256335107e55b0a6199bff4027d89d461ccd6d574284e4b349063650203616331056e73746c6403636f6d00c02aad1e0203616332c02cc02aae1e0203616333c02cc02aaf1e0203616334c02cc02ab01e03c0282001050001200000000000000000003003c03c2001050001210000000000000000003003c0472001050001220000000000000000003003c0522001050001230000000000000000003001c02801c03c01c04701c052,
  0x01ce000000aca5080220f67a611d0e5c56e122528426f224cf9a4b56dbe27860f50384842afce93484ee02016103646e73047269706e036e657400c1e88006020162c02ac255fc3e020164c02ac2be7c11020165c02ac1e88e11020166c02ac1e89c1103c0282001067800170000019302320128000603c03d2001067800160000019400850252006203c0462001067800180000019401900124001703c04f2001067800150000019302320142001703c0582001067800140000019302320156001701c02801c03d01c04601c04f01c058,
  0x01b70000005ab90d0220bd1e542c994f3e0d03467d60d852ac6da47c825d16d64612006ac2afe1fe2da902036e73310b756e697265676973747279036e6574004060010102036e73320b756e69726567697374727904696e666f004060020102036e7333c02cb99fc50302036e7334c046b99fc60303c0282620005740000001000000000000000103c05d2620010a80aa0000000000000000000303c0682620010a80ab0000000000000000000301c02801c04201c05d01c068,
  0x01fa0000000d390802204d66cf4d6309a91268d634432d008877ab792d0632a1f8775b732a18c277786f020476306e30036e6963037461780041161810020476306e31c02d41161910020476306e32c02d41161a10020476306e33c02da1e80c10020476326e30c02d41161b10020476326e31c02da1e80d1003c0282a018840001a0000000000000000001603c03b2a018840001b0000000000000000001603c0472a018840001c0000000000000000001603c0532a01884000f60000000000000000001603c05f2a018840001d0000000000000000001603c06b2a01884000f70000000000000000001601c02801c03b01c04701c05301c05f01c06b,
  0x01fb000000705408022075a029ee9c29f3cfb66255f04c724e4739ed871da812f13b9684e07382535369020476306e30036e696304746178690041161415020476306e31c02d41161515020476306e32c02d41161615020476306e33c02da1e80a15020476326e30c02d41161715020476326e31c02da1e80b1503c0282a01884000160000000000000000002103c03c2a01884000170000000000000000002103c0482a01884000180000000000000000002103c0542a01884000f40000000000000000002103c0602a01884000190000000000000000002103c06c2a01884000f50000000000000000002101c02801c03c01c04801c05401c06001c06c,
  0x01d400000205726f6f7431047a6f6e65027463001fa951e10205726f6f7432c0084d4f68e20205726f6f7433c0084d4f68e10205726f6f7434c0081fa951e20205726f6f7435c0085fadbc060205726f6f7436c008a64efe910205726f6f7437c00877095d450205726f6f7438c008a20d57b603c03d2a03210000000100000000000000000503c04a2001480178190074a3223632ff103e2f03c0572401180078000102ab3be6a7859fa6c703c0642a001a4878060115d99409fe9eb2e68d01c00201c01601c02301c03001c03d01c04a01c05701c064,
  0x01ab000000301d0802201d37f5016c69d56f3a3732434a0471fff1fffd580e4a7ce26816bc525095de83020161026e73036e6963037463690048003108020162c02a482a710802036e73310a616e7963617374646e7302637a00b9266c6c02036e7332c048b91cc2c203c028262001710a0100ad000000000000000803c03b262001710d0100dc000000000000000803c0442a00fea0dead0000000000000000beef01c02801c03b01c04401c05c,
  0x019500000203706368036e696302746400cc3dd88102056e732d746407616672696e6963036e657400c4d8a81f020b616e7963617374646e7331c006b9266c6c020b616e7963617374646e7332c006b91cc2c203c002200105000014612900ad00000000000103c013200143f801200000000000000000003103c02b2a00fea0dead0000000000000000beef01c00201c01301c02b01c03e,
  0x01f2000000d98a080220bbad3ff362d157b3e4c07da5eab21dc9023320e511f6b5cef84a19d773eec2a9020161036e69630374646b0025d1c009020162c02a25d1c209020163c02a25d1c40902036e733103646e73c02a9c9a909f02036e7332c04e9c9a919f02036e7333c04e9c9a9f9f03c02820010dcd00010000000000000000000903c03820010dcd00020000000000000000000903c04120010dcd00030000000000000000000903c04a261000a110710000000000000000009f03c059261000a110720000000000000000009f03c064261000a110730000000000000000009f01c02801c03801c04101c04a01c05901c064,
  0x01fb00000095ec08022098207980337abe3132eb70514e4f2117a2cbc9d83acd2e89b18f9368a0456ea9020476306e30036e6963047465616d0041162025020476306e31c02d41162125020476306e32c02d41162225020476306e33c02da1e81025020476326e30c02d41162325020476326e31c02da1e8112503c0282a01884000220000000000000000003703c03c2a01884000230000000000000000003703c0482a01884000240000000000000000003703c0542a01884000fa0000000000000000003703c0602a01884000250000000000000000003703c06c2a01884000fb0000000000000000003701c02801c03c01c04801c05401c06001c06c,
  0x01c5000000c3af08011482f72f2462dee25b99da2470535ad0a7d131f1eb00c3af08022083f40d01141484d8f07305e5d2e44ac5663149054c598d6e9d993c661686c6ee020161036e6963047465636800c2a9da3c020162c044b918403c020165c044d412f83c020166c044d412f93c03c0422001067c13cc0000000000000001006003c0532a042b0013cc0000000000000001006003c05c2a042b0013ee0000000000000000006003c0652a042b0013ff0000000000000000006001c04201c05301c05c01c065,
  0x01010100006a27080220dbbbb57529756c1bf2ed1ab1ca275b580c2f3296fcb65689844a8d58cd936516020476306e30036e69630a746563686e6f6c6f67790041161c25020476306e31c02d41161d25020476306e32c02d41161e25020476306e33c02da1e80e25020476326e30c02d41161f25020476326e31c02da1e80f2503c0282a018840001e0000000000000000003703c0422a018840001f0000000000000000003703c04e2a01884000200000000000000000003703c05a2a01884000f80000000000000000003703c0662a01884000210000000000000000003703c0722a01884000f90000000000000000003701c02801c04201c04e01c05a01c06601c072,
  0x013a010000b74c0802203f708af9fc2d9fa7e09ac99fa19bd6d1b4b0f3f5d95dd06ba2dc95b0aa2e53f802036e733103646e73036e69630374656c009c9aa90a02036e7332c02c9c9aaa0a02036e7333c02c9c9aab0a02036e7334c02c9c9aac0a02036e7335c02c9c9aad0a02036e7336c02c9c9aae0a02036e7337c02cc2926a2602036e7338c02cc024907403c028261000a110710000000000000001000a03c03e261000a110720000000000000001000a03c049261000a110730000000000000001000a03c054261000a110740000000000000001000a03c05f261000a110750000000000000001000a03c06a261000a110760000000000000001000a03c0752001067c10100009000000000000005303c0802a0103f000000300000000000000005301c02801c03e01c04901c05401c05f01c06a01c07501c080,
  0x01b20000008c95080220225862860c611d932591e3173ca1ff2a1903716878ee30981ab59e1d179570bb02026130036e69630774656d6173656b0041168c0902026132c02b41168f0902026230c02b41168d0902026330c02b41168e0903c0282a018840008a0000000000000000000903c03d2a018840008d0000000000000000000903c0472a018840008b0000000000000000000903c0512a018840008c0000000000000000000901c02801c03d01c04701c051,
  0x01fd000000a2df08022030e59d10fa2e38db83b8dbac7ced28b8a1d6a6697b19b0b8eae5f7cbbaf5d0d8020476306e30036e69630674656e6e69730041161c20020476306e31c02d41161d20020476306e32c02d41161e20020476306e33c02da1e80e20020476326e30c02d41161f20020476326e31c02da1e80f2003c0282a018840001e0000000000000000003203c03e2a018840001f0000000000000000003203c04a2a01884000200000000000000000003203c0562a01884000f80000000000000000003203c0622a01884000210000000000000000003203c06e2a01884000f90000000000000000003201c02801c03e01c04a01c05601c06201c06e,
  0x01f3000000b5510802207e670079255665759e954def033d30aaa2dabb07cf77eca7f27975fd03e0cfc8020161036e696304746576610025d1c009020162c02a25d1c209020163c02a25d1c40902036e733103646e73c02a9c9a90a002036e7332c04f9c9a91a002036e7333c04f9c9a9fa003c02820010dcd00010000000000000000000903c03920010dcd00020000000000000000000903c04220010dcd00030000000000000000000903c04b261000a11071000000000000000000a003c05a261000a11072000000000000000000a003c065261000a11073000000000000000000a001c02801c03901c04201c04b01c05a01c065,
  0x01ad0000002f3f0d02204110abe221396d1a9493c5dd67140890e14c73d7ac0fcd67f4b60979e9881283020164036e696302667200c200090102016503657874c02ac1b09016020166c039c2926a2e020167c039c200240103c02820010678000c0000000000000000000103c0372a000d7800000102019301760144002203c0442001067c10100011000000000000005303c04d20010678004c0000000000000000000101c02801c03701c04401c04d,
  0x01d1000002036e7331036e69630274670029cfbc2402036e73310561646d696e036e657400c649ba0102036e7332c00650f8440c02036e7332c0176c3d197a02036e7333c0175762b42c02036e7334c01767193a1a02036e7335c017bca5212a0203746c640463616665c00a50f8401403c032200119f003001007000000000000cafe03c03d200141d000028adf000000000000000203c0482406d501000000000000000047e32a7c03c053200141d000085c79000000000000000301c00201c01301c02701c03201c03d01c04801c05301c05e,
  0x01c50000004aad080220e26bf35f73234ac50c600632fc717ae491f4a8b4f662fb29234f5499acfebf6402016106746861696e7302636f027468007a9b1740020162c02acb9f4040020163c02ac200011c020170c02acc3dd87e02026e730574686e6963036e657400ca1c000103c02820010c3820000183000000000000003003c03d24053340e0113000000000000000003003c0462001067800040000000000000000001c03c04f200105000014612600ad00000000000101c02801c03d01c04601c04f01c058,
  0x01ae0000003f6d080220a2b1e70ec2a5831a069b94ccf9b39e547cd9a351055ea87f4b74dd99f7b061e102026130036e696303746864004116c00902026132c02b4116c30902026230c02b4116c10902026330c02b4116c20903c0282a01884000ba0000000000000000000903c0392a01884000bd0000000000000000000903c0432a01884000bb0000000000000000000903c04d2a01884000bc0000000000000000000901c02801c03901c04301c04d,
  0x01fe00000003430802201f2f456aa1f487103616fe00b21f4c6b8238213f5fc85401cfe49dc4b4c2da10020476306e30036e696307746865617465720041161440020476306e31c02d41161540020476306e32c02d41161640020476306e33c02da1e80a40020476326e30c02d41161740020476326e31c02da1e80b4003c0282a01884000160000000000000000006403c03f2a01884000170000000000000000006403c04b2a01884000180000000000000000006403c0572a01884000f40000000000000000006403c0632a01884000190000000000000000006403c06f2a01884000f50000000000000000006401c02801c03f01c04b01c05701c06301c06f,
  0x01c8000000b08c080114abed901a738d17abfa754e304b6e1c0c9021aac500b08c080220530b10ce5cc67a1f4c6e5f59bf28e851426b9d6991233203e42a8970bd9a8011020161036e6963077468656174726500c2a9da45020162c044b9184045020163c044d412f845020164c044d412f94503c0422001067c13cc0000000000000001006903c0562a042b0013cc0000000000000001006903c05f2a042b0013ee0000000000000000006903c0682a042b0013ff0000000000000000006901c04201c05601c05f01c068,
  0x01b400000023e20802205214d8971ec4dc7cd349205bcb13f84d4446aafa4d87d07c8c5443a180741fea0203616331056e73746c6403636f6d00c02aad1e0203616332c02cc02aae1e0203616333c02cc02aaf1e0203616334c02cc02ab01e03c0282001050001200000000000000000003003c03c2001050001210000000000000000003003c0472001050001220000000000000000003003c0522001050001230000000000000000003001c02801c03c01c04701c052,
  0x01c80000002b3d080114ef9659c10a6ff3b9259f2df0cf7d36eca515c8f0002b3d0802205d58d40b472461672340583b4865540a52bfb551ca57663b22084e554d09532b020161036e6963077469636b65747300c2a9da3a020162c044b918403a020163c044d412f83a020164c044d412f93a03c0422001067c13cc0000000000000001005803c0562a042b0013cc0000000000000001005803c05f2a042b0013ee0000000000000000005803c0682a042b0013ff0000000000000000005801c04201c05601c05f01c068,
  0x01fd00000049bd0802208a24a050895db01a10aa65274b30e9dcf130a48499f4e24659488430893de7e1020476306e30036e6963067469656e6461004116201d020476306e31c02d4116211d020476306e32c02d4116221d020476306e33c02da1e8101d020476326e30c02d4116231d020476326e31c02da1e8111d03c0282a01884000220000000000000000002903c03e2a01884000230000000000000000002903c04a2a01884000240000000000000000002903c0562a01884000fa0000000000000000002903c0622a01884000250000000000000000002903c06e2a01884000fb0000000000000000002901c02801c03e01c04a01c05601c06201c06e,
  0x01b40000005be90802202b2055da5b9924c2f130e81f7f11ef9c875ac0bd32247605110e05de7502530c0203616331056e73746c6403636f6d00c02aad1e0203616332c02cc02aae1e0203616333c02cc02aaf1e0203616334c02cc02ab01e03c0282001050001200000000000000000003003c03c2001050001210000000000000000003003c0472001050001220000000000000000003003c0522001050001230000000000000000003001c02801c03c01c04701c052,
  0x01fb000000bb5d080220f7855e0b7abe74ad44b19dba63986f47a496e1b7dd37ffed2bc2c2499da4ca72020476306e30036e696304746970730041161805020476306e31c02d41161905020476306e32c02d41161a05020476306e33c02da1e80c05020476326e30c02d41161b05020476326e31c02da1e80d0503c0282a018840001a0000000000000000000503c03c2a018840001b0000000000000000000503c0482a018840001c0000000000000000000503c0542a01884000f60000000000000000000503c0602a018840001d0000000000000000000503c06c2a01884000f70000000000000000000501c02801c03c01c04801c05401c06001c06c,
  0x01fc00000053fe0802206db31bf7d51a54d4c5179619a31d6256747d09b3b4788b6a82c61841c20eceaa020476306e30036e69630574697265730041161840020476306e31c02d41161940020476306e32c02d41161a40020476306e33c02da1e80c40020476326e30c02d41161b40020476326e31c02da1e80d4003c0282a018840001a0000000000000000006403c03d2a018840001b0000000000000000006403c0492a018840001c0000000000000000006403c0552a01884000f60000000000000000006403c0612a018840001d0000000000000000006403c06d2a01884000f70000000000000000006401c02801c03d01c04901c05501c06101c06d,
  0x01a2000000c08908022079fe828514049fe47cf888bd5bcc827503356c085951aaf089894c61c28f74960203646e7308727963652d72737003636f6d00c2000b7202036e733103646e7308627573696e657373009d5acd8a02036e7331c02cc138cc9903c02820010678000e0114000000000000005303c03f2a0104f802524295000000009d5acd8a03c0562a0c8f4000000701000000000000015301c02801c03f01c056,
  0x019600000202746a056363746c640761757468646e730472697065036e657400c100097502036e7331036e696302746a005bdaa0c502036e73320a746f6a696b6973746f6e03636f6d00c16f0b04020670686c6f656d07756f7265676f6e036564750080df202303c0022001067c00e00000000000000000011703c04c200104680d0100200000000080df202301c00201c02201c03301c04c,
  0x01f5000000b968080220fd4d33c7b820582ca00aa1191df28406ff4ac867302f06cb5101f29f7f54c33d020161036e696306746a6d6178780025d1c009020162c02a25d1c209020163c02a25d1c40902036e733103646e73c02a9c9a90a102036e7332c0519c9a91a102036e7333c0519c9a9fa103c02820010dcd00010000000000000000000903c03b20010dcd00020000000000000000000903c04420010dcd00030000000000000000000903c04d261000a11071000000000000000000a103c05c261000a11072000000000000000000a103c067261000a11073000000000000000000a101c02801c03b01c04401c04d01c05c01c067,
  0x01f200000018be080220009e613888cfde218f0b08e676efbac926cbd6ee7a12cfc7b984ba18013a0c4a020161036e696303746a780025d1c009020162c02a25d1c209020163c02a25d1c40902036e733103646e73c02a9c9a90a202036e7332c04e9c9a91a202036e7333c04e9c9a9fa203c02820010dcd00010000000000000000000903c03820010dcd00020000000000000000000903c04120010dcd00030000000000000000000903c04a261000a11071000000000000000000a203c059261000a11072000000000000000000a203c064261000a11073000000000000000000a201c02801c03801c04101c04a01c05901c064,
  0x01820000020161026e7302746b00c2002601020162c004c2002701020163c004c2002801020164c004c200290103c0022001067800500000000000000000000103c0102001067800540000000000000000000103c0192001067800580000000000000000000103c02220010678005c0000000000000000000101c00201c01001c01901c022,
  0x01f5000000b770080220ecb1a09652906f084a1d362e599a9fcdb024f3e9382ac8dc6c3e47f6dd25fbd6020161036e696306746b6d6178780025d1c009020162c02a25d1c209020163c02a25d1c40902036e733103646e73c02a9c9a90a302036e7332c0519c9a91a302036e7333c0519c9a9fa303c02820010dcd00010000000000000000000903c03b20010dcd00020000000000000000000903c04420010dcd00030000000000000000000903c04d261000a11071000000000000000000a303c05c261000a11072000000000000000000a303c067261000a11073000000000000000000a301c02801c03b01c04401c04d01c05c01c067,
  0x019100000062db080220bc0412d59817424a34040676f1ae1205b1f33fc9510e7e30114711851ffcede402026e7307616e7963617374036e696302746c00cc3dd81302036e73310a616e7963617374646e7302637a00b9266c6c02036e7332c044b91cc2c203c028200105000014601900ad00000000000103c0402a00fea0dead0000000000000000beef01c02801c04001c058,
  0x01f80000008fb3080220af4a3a54aa5f73c114f9c6e4d9c3ef0040e387806a9f92ae85276ff38f33bcb502056e732d613102746d00c200011602056e732d6132c02ec200021602056e732d6133c02e4a74b21602056e732d6134c02e4a74b31602056e732d6431c02e40fb1fb402056e732d6c31c02e50f9642c02056e732d7931c02e5bd05f1603c0282001067800040000000000000000001603c0372001067800050000000000000000001603c05e2607feb800000000000000000005000803c06b200104701f1d0244000000000000004403c078200104701f070d0b000000000000002201c02801c03701c04401c05101c05e01c06b01c078,
  0x01d6000000a033080220347fec623e6338ed0939e1a942d4151cb73565603acd203319eb547222fe9cdb00e49d08022074cceeb96ef2237b854b057ab38a9384865f16c48eeb467364d09458b75355ef02026130036e696305746d616c6c004116340902026132c0514116370902026230c0514116350902026330c0514116360903c04e2a01884000320000000000000000000903c0612a01884000350000000000000000000903c06b2a01884000330000000000000000000903c0752a01884000340000000000000000000901c04e01c06101c06b01c075,
  0x010d01000021b508022005c891303fdee4fdae258e2a7d48370ce21f98058c0ee0a50c438c2878a8e2d602036e73310361746902746e0029e43e3f02036e7332c02c29e43f3e02036e7332036e696302667200c05d00040203706368c02ccc3dd85e02037269700370736703636f6d00931c002702056e732d746e07616672696e6963036e657400c4d8a81903c0282c0ffab0ffff0004004102280062006303c0392c0ffab0ffff0005004102280063006203c0442001066030050001000000000001000203c055200105000014600400ad00000000000103c0602001041800010000000000000000003903c072200143f801200000000000000000002501c02801c03901c04401c05501c06001c072,
  0x018000000204636f6c6f05746f6e696302746f00d84a206502c007951cccf002067379646e6579c007689ce8c102076e6577796f726bc007a2f3d3ca020868656c73696e6b69c0075fd89f2a02096672616e6b66757274c0072e65e9a8020973696e6761706f7265c007bca6bb0001c00201c00701c01d01c02b01c03a01c04a01c05b,
  0x01fc0000001fe408022092c5eaf94dd9dbc7d5254faf41cff9dfeae138c718773528dae6b717ef1b6fe0020476306e30036e696305746f6461790041161c23020476306e31c02d41161d23020476306e32c02d41161e23020476306e33c02da1e80e23020476326e30c02d41161f23020476326e31c02da1e80f2303c0282a018840001e0000000000000000003503c03d2a018840001f0000000000000000003503c0492a01884000200000000000000000003503c0552a01884000f80000000000000000003503c0612a01884000210000000000000000003503c06d2a01884000f90000000000000000003501c02801c03d01c04901c05501c06101c06d,
  0x019f00000087d7080220009538d854dc2b09a147c657b496a8cd5151bc2fbadd83cf0c322f625fa5a7ce0201610b676d6f7265676973747279036e65740025d1c004020162c02a25d1c20402016bc02a25d1c40402016cc02a25d1c60403c02820010dcd00010000000000000000000403c04020010dcd00020000000000000000000403c05220010dcd00040000000000000000000401c02801c04001c04901c052,
  0x01fc00000036070802205ddd852d119830be951afa0d5176443a935eaa350278ef15fbea34156cf5a9ab020476306e30036e696305746f6f6c730041161c2c020476306e31c02d41161d2c020476306e32c02d41161e2c020476306e33c02da1e80e2c020476326e30c02d41161f2c020476326e31c02da1e80f2c03c0282a018840001e0000000000000000004403c03d2a018840001f0000000000000000004403c0492a01884000200000000000000000004403c0552a01884000f80000000000000000004403c0612a01884000210000000000000000004403c06d2a01884000f90000000000000000004401c02801c03d01c04901c05501c06101c06d,
  0x01ac000000dc40080220ba378c5913404ec654df544f519b0fb287e140d64dac5d59e349962393c17945020161097a646e73636c6f756403636f6d00cb631801020162c02acb631901020163c02acb631a01020164c02acb631b01020166c02a724310cc020167c02a2a3e0210030169c02a24018d0000010000000000000000000103016ac02a24018d0000020000000000000000000101c02801c03e01c04701c05001c05901c06201c06b01c080,
  0x019f000000cf41080220940a6f87f2d2482fc5541e20e646f38bb0535e7700d3317690bb42030c822d2c0201610b676d6f7265676973747279036e65740025d1c004020162c02a25d1c20402016bc02a25d1c40402016cc02a25d1c60403c02820010dcd00010000000000000000000403c04020010dcd00020000000000000000000403c05220010dcd00040000000000000000000401c02801c04001c04901c052,
  0x019f00000097eb0802203ef24a44f5ffda39fe23e4e4e4d2449e55a0b3001ec68a075a38313b6a4ff0d50201610b676d6f7265676973747279036e65740025d1c004020162c02a25d1c20402016bc02a25d1c40402016cc02a25d1c60403c02820010dcd00010000000000000000000403c04020010dcd00020000000000000000000403c05220010dcd00040000000000000000000401c02801c04001c04901c052,
  0x018e000000ed710d0220eb38c07816fdf6cf8277071f558ac0c7c787088263271b55eee4e59981414d93020164036e696302667200c200090102016603657874c02ac2926a2e020167c039c200240103c02820010678000c0000000000000000000103c0372001067c10100011000000000000005303c04420010678004c0000000000000000000101c02801c03701c044,
  0x01fc000000a2f4080220ad0f4d55834496f7305ac2a3a8743ddbf7c4802ec246341e7f9e555fa42b5ee9020476306e30036e696305746f757273004116182f020476306e31c02d4116192f020476306e32c02d41161a2f020476306e33c02da1e80c2f020476326e30c02d41161b2f020476326e31c02da1e80d2f03c0282a018840001a0000000000000000004703c03d2a018840001b0000000000000000004703c0492a018840001c0000000000000000004703c0552a01884000f60000000000000000004703c0612a018840001d0000000000000000004703c06d2a01884000f70000000000000000004701c02801c03d01c04901c05501c06101c06d,
  0x01fb000000f718080220515451761441c5c476f32ee4d28ae24d5179521fb505c318ef721e5fd6165c16020476306e30036e696304746f776e0041161c37020476306e31c02d41161d37020476306e32c02d41161e37020476306e33c02da1e80e37020476326e30c02d41161f37020476326e31c02da1e80f3703c0282a018840001e0000000000000000005503c03c2a018840001f0000000000000000005503c0482a01884000200000000000000000005503c0542a01884000f80000000000000000005503c0602a01884000210000000000000000005503c06c2a01884000f90000000000000000005501c02801c03c01c04801c05401c06001c06c,
  0x019f0000000494080220d29f5d4ba40bdfed42adbd4a710003739220b1d361d1a29e8e31f03bb067d7380201610b676d6f7265676973747279036e65740025d1c004020162c02a25d1c20402016bc02a25d1c40402016cc02a25d1c60403c02820010dcd00010000000000000000000403c04020010dcd00020000000000000000000403c05220010dcd00040000000000000000000401c02801c04001c04901c052,
  0x01fb00000065ad0802207e93110615b5fadb76632c18aee800588a81fc4d6d70b9029385987290678ea9020476306e30036e696304746f79730041161417020476306e31c02d41161517020476306e32c02d41161617020476306e33c02da1e80a17020476326e30c02d41161717020476326e31c02da1e80b1703c0282a01884000160000000000000000002303c03c2a01884000170000000000000000002303c0482a01884000180000000000000000002303c0542a01884000f40000000000000000002303c0602a01884000190000000000000000002303c06c2a01884000f50000000000000000002301c02801c03c01c04801c05401c06001c06c,
  0x01a9000002046e733331036e6963027472001fd29b0202046e733334c0071f918b6302046e733335c0071f918b7702046e733431c007b907000202046e733432c007b907000302046e733631c007ce33fe0102046e733731c007b943203503c02c20010a980010eeee000000000000004103c03820010a980010eeee000000000000004203c0442620017108040ad2000000000000000101c00201c01401c02001c02c01c03801c04401c050,
  0x01f400000086440802202647b121fa8a1109cf92d8a945f29ffc3bb42067d3b3c3dba392211de020d87a020161036e69630574726164650025d1c00a020162c02a25d1c20a020163c02a25d1c40a02036e733103646e73c02a9c9a90a502036e7332c0509c9a91a502036e7333c0509c9a9fa503c02820010dcd00010000000000000000001003c03a20010dcd00020000000000000000001003c04320010dcd00030000000000000000001003c04c261000a11071000000000000000000a503c05b261000a11072000000000000000000a503c066261000a11073000000000000000000a501c02801c03a01c04301c04c01c05b01c066]
def data12 : List Nat := [
  0x01fe000000bfe9080220ef6ca74a84fbac616c85ddfc58eac5475041c67daec11fe64fa0c481968a0790020476306e30036e69630774726164696e670041162042020476306e31c02d41162142020476306e32c02d41162242020476306e33c02da1e81042020476326e30c02d41162342020476326e31c02da1e8114203c0282a01884000220000000000000000006603c03f2a01884000230000000000000000006603c04b2a01884000240000000000000000006603c0572a01884000fa0000000000000000006603c0632a01884000250000000000000000006603c06f2a01884000fb0000000000000000006601c02801c03f01c04b01c05701c06301c06f,
  0x01ff000000acf908022080dd6f1aad9c85fed280bc232c0dd8426c09dd7bdd6f6e6bc16232e252cba059020476306e30036e696308747261696e696e670041161829020476306e31c02d41161929020476306e32c02d41161a29020476306e33c02da1e80c29020476326e30c02d41161b29020476326e31c02da1e80d2903c0282a018840001a0000000000000000004103c0402a018840001b0000000000000000004103c04c2a018840001c0000000000000000004103c0582a01884000f60000000000000000004103c0642a018840001d0000000000000000004103c0702a01884000f70000000000000000004101c02801c04001c04c01c05801c06401c070,
  0x01fd000000eb75080220df8590752dcf2cc075f91d5a6178c38a7ba1dbbc0c2327b88ca37be4797be126020476306e30036e69630674726176656c0041161c08020476306e31c02d41161d08020476306e32c02d41161e08020476306e33c02da1e80e08020476326e30c02d41161f08020476326e31c02da1e80f0803c0282a018840001e0000000000000000000803c03e2a018840001f0000000000000000000803c04a2a01884000200000000000000000000803c0562a01884000f80000000000000000000803c0622a01884000210000000000000000000803c06e2a01884000f90000000000000000000801c02801c03e01c04a01c05601c06201c06e,
  0x01b40000004f38080220758df715924d7a2b42a790aa5cf15d75c12bf7c92b481cdea643fd0d8ded7a7f0203616331056e73746c6403636f6d00c02aad1e0203616332c02cc02aae1e0203616333c02cc02aaf1e0203616334c02cc02ab01e03c0282001050001200000000000000000003003c03c2001050001210000000000000000003003c0472001050001220000000000000000003003c0522001050001230000000000000000003001c02801c03c01c04701c052,
  0x01b400000003c7080220975d9fd3b056e286263f680f31106c7509ed466eae0aa08b3b045abae39945f602026130036e69630974726176656c657273004116c80902026132c02b4116cb0902026230c02b4116c90902026330c02b4116ca0903c0282a01884000c20000000000000000000903c03f2a01884000c50000000000000000000903c0492a01884000c30000000000000000000903c0532a01884000c40000000000000000000901c02801c03f01c04901c053,
  0x01bd0000002c7d0802201a8f262ddbe7316233e999f81ae452c17b3435c57bab9ceec4bae518f121e1f102026130036e69631274726176656c657273696e737572616e6365004116c81102026132c02b4116cb1102026230c02b4116c91102026330c02b4116ca1103c0282a01884000c20000000000000000001703c0482a01884000c50000000000000000001703c0522a01884000c30000000000000000001703c05c2a01884000c40000000000000000001701c02801c04801c05201c05c,
  0x01b700000084500d0220d324a81281464251e04686f4e75d2978b119496fe596012a89647ff6af0eefc302036e73310b756e697265676973747279036e6574004060010102036e73320b756e69726567697374727904696e666f004060020102036e7333c02cb99fc50302036e7334c046b99fc60303c0282620005740000001000000000000000103c05d2620010a80aa0000000000000000000303c0682620010a80ab0000000000000000000301c02801c04201c05d01c068,
  0x01ae000000bda3080220f525871ee63ffed32856ba0c67f5115d5b011a437b67250e357df2bdcf1ea31c02026130036e696303747276004116c81902026132c02b4116cb1902026230c02b4116c91902026330c02b4116ca1903c0282a01884000c20000000000000000002503c0392a01884000c50000000000000000002503c0432a01884000c30000000000000000002503c04d2a01884000c40000000000000000002501c02801c03901c04301c04d,
  0x019900000009eb080220b06dfa79674df3ea8190e7616164414b01e9199b7c94ec1540378a395daa401f020161066c6163746c64036f726700c800440a0203706368036e696302747400cc3dd83f020472697065c03fc100093203c02828010014a0000000000000000000001003c03b200105000014606300ad00000000000103c04c2001067c00e00000000000000000005001c02801c03b01c04c,
  0x01f3000000b038080220a5918afdeeed73d4603adf2ec0ec6a2735b7ded61849c500deb6b68a5bd03610020161036e696304747562650025d1c00a020162c02a25d1c20a020163c02a25d1c40a02036e733103646e73c02a9c9aa95002036e7332c04f9c9aaa5002036e7333c04f9c9aab5003c02820010dcd00010000000000000000001003c03920010dcd00020000000000000000001003c04220010dcd00030000000000000000001003c04b261000a110710000000000000001005003c05a261000a110720000000000000001005003c065261000a110730000000000000001005001c02801c03901c04201c04b01c05a01c065,
  0x01d00000005afa080220d53c138ead14027d6192dfb0c2cd0b7cff36986e47fe680d8b05f84ac78d633b008a0e08022060bac1e816660ea6cc89bbe453c4cac50ee7fbc9bbac3ca6f8eebfb1a24af721020161036e69630374756900c2a9da67020162c050b9184067020163c050d412f867020164c050d412f96703c04e2001067c13cc0000000000000001010303c05e2a042b0013cc0000000000000001010303c0672a042b0013ee0000000000000000010303c0702a042b0013ff0000000000000000010301c04e01c05e01c06701c070,
  0x0140010000cc0a0802200d317ea34edc8d43e8868616f66bc5bd9b5e5389dbbfdd1529f7c609ae095b9d0204646e7331036e69630574756e657300d5f8da540204646e7332c02d673152540204646e7333c02dd5f8de540204646e7334c02d2be632540204646e7361c02d9c9a64030204646e7362c02d9c9a65030204646e7363c02d9c9a66030204646e7364c02d9c9a670303c0282a01061804020000000000000000008403c03d2401fd8004020000000000000000008403c0492a01061804060000000000000000008403c0552401fd8004060000000000000000008403c06120010502ad090000000000000000000303c06d200105022eda0000000000000000000303c079261000a110090000000000000000000303c085261000a110100000000000000000000301c02801c03d01c04901c05501c06101c06d01c07901c085,
  0x014001000096e308022081d6d592c13f144d74bbde9d4a93531338245e9ac1781eec826d4b610947d1a20204646e7331036e696305747573687500d5f8da550204646e7332c02d673152550204646e7333c02dd5f8de550204646e7334c02d2be632550204646e7361c02d9c9a64030204646e7362c02d9c9a65030204646e7363c02d9c9a66030204646e7364c02d9c9a670303c0282a01061804020000000000000000008503c03d2401fd8004020000000000000000008503c0492a01061804060000000000000000008503c0552401fd8004060000000000000000008503c06120010502ad090000000000000000000303c06d200105022eda0000000000000000000303c079261000a110090000000000000000000303c085261000a110100000000000000000000301c02801c03d01c04901c05501c06101c06d01c07901c085,
  0x01cf000000083b0802202f2dc481c07e7db2e54a546a7a35cc16cbcf242ec76b71385a42cd7bc37e7fc800af680802201cfe1309925b78f42c8b4862a670b0bab9fc142ed8b4d41e24c65fe6a0d9dfb4020161036e69630274760025d1c006020162c05025d1c206020163c05025d1c406020164c05025d1c60603c04e20010dcd00010000000000000000000603c05d20010dcd00020000000000000000000603c06620010dcd00030000000000000000000603c06f20010dcd00040000000000000000000601c04e01c05d01c06601c06f,
  0x01ae00000071e9080220a36cbb75c2c810d16fdd5562c334351bdd007f5aeb008537115586951ac3924002026130036e696303747673004116cc0902026132c02b4116cf0902026230c02b4116cd0902026330c02b4116ce0903c0282a01884000c60000000000000000000903c0392a01884000c90000000000000000000903c0432a01884000c70000000000000000000903c04d2a01884000c80000000000000000000901c02801c03901c04301c04d,
  0x0165010000c84d080220462da9af501d2b1eef6725522db5972f8cd2490b51d92088ff1e3d2de0ec7bcd02016103646e7302747700cb491819020162c02ad2c98a3a020163c02acb4257c9020164c02a3cc7a5ba020165c02ad314e70b020166c02aa31c010a020167c02adce5e1c3020168c02acc3dd87702026e730574776e6963036e657400c053a60b0206616e79746c640561706e6963c07fca0c1f3503c028200145b100000005000000000000002503c0372404000010a00000000000000000005803c0402001b02000000077000000000000000103c0492001454190100007000000000000018603c0522001b00001e0c000000000000000001103c06420010cd804000000000000000000019503c06d200105000014611900ad00000000000103c0762001028800011006000000000000001103c08920010dd800120000000000000000005301c02801c03701c04001c04901c05201c05b01c06401c06d01c07601c089,
  0x012d010000761a0d02203d83825b9f7d66f9b28b5566ba5371798e8d3b88ef079bb88f52617811c1b9a002026e7307616e796361737402636f02747a00cc3dd80f02036e733205747a6e6963026f72c036c4d8a24302037269700370736703636f6d00931c00270204666f726b0373746807646e736e6f6465036e6574004d48e5fe0204747a2d65026e73036e696302637a00b92b860b02056e732d747a07616672696e6963c076c4d8a81403c028200105000014601500ad00000000000103c03f200143f800e00001000000000000006703c0532001041800010000000000000000003903c0652a0103f000000306000000000000005303c0802001148ffffd0000000000000000001103c095200143f801200000000000000000002001c02801c03f01c05301c06501c08001c095,
  0x010a010000bcdd0d0220d8456df0eab0db7d2422b4110722f5772d7b2f1fd41d487e956a54f1039d53c802026267026e7302756100b98860b902c028b98861b902026e6ec02bc23ac5040203686f31c02bc32ffd010203696e31c02b4a7be0280203706368c02bcc3dd80c020372637ac02bc12e800a03c0282a06fb0000010000000000000002018503c0282a06fb0000010000000000000004018503c03e2a0103f1c0010000000000000000005303c0482001067c02580000000000000000000103c0532604ee0000000101000000000000004003c05e200105000014601200ad00000000000103c0692a020850ffe00000000000000000001001c02801c03e01c04801c05301c05e01c069,
  0x01b4000000a28a080220cfdb4a18bf58ce90787c1f961badff9ef843d95dab9057629f2a0f037fb931a40203616331056e73746c6403636f6d00c02aad1e0203616332c02cc02aae1e0203616333c02cc02aaf1e0203616334c02cc02ab01e03c0282001050001200000000000000000003003c03c2001050001210000000000000000003003c0472001050001220000000000000000003003c0522001050001230000000000000000003001c02801c03c01c04701c052,
  0x01b40000003096080220171f8167e302df1987aa8760841d65918acc427819cac5b70ef74be730f456ad0203616331056e73746c6403636f6d00c02aad1e0203616332c02cc02aae1e0203616333c02cc02aaf1e0203616334c02cc02ab01e03c0282001050001200000000000000000003003c03c2001050001210000000000000000003003c0472001050001220000000000000000003003c0522001050001230000000000000000003001c02801c03c01c04701c052,
  0x01ef0000000acf0802204278d7c4b2b45738a39f310eac36558411bd547812517bdf23f95fcbb4796b2e02026e73056963616e6e036f726700c7048a3502027567056363746c640761757468646e730472697065036e657400c10009340204726f6f740465616864026f7202756700d458618402056e732d756707616672696e6963c051c4d8a82a0207616e7963617374c060cc3dd83c03c0282001050000890000000000000000005303c03b2001067c00e00000000000000000005203c071200143f801200000000000000000004203c086200105000014606000ad00000000000101c02801c03b01c05b01c07101c086,
  0x0139010000ab64080220a107ed2ac1bd14d924173bc7e827a1153582072394f9272ba37e2353bc65960302036e7361036e696302756b009c9a640302036e7362c02c9c9a650302036e7363c02c9c9a660302036e7364c02c9c9a67030204646e7331c02cd5f8d8010204646e7332c02c673150010204646e7333c02cd5f8dc010204646e7334c02c2be6300103c02820010502ad090000000000000000000303c039200105022eda0000000000000000000303c044261000a110090000000000000000000303c04f261000a110100000000000000000000303c05a2a01061804000000000000000000000103c0662401fd8004000000000000000000000103c0722a01061804040000000000000000000103c07e2401fd8004040000000000000000000101c02801c03901c04401c04f01c05a01c06601c07201c07e,
  0x01ac000000c94708022079fe987f5edef21f8afc9a56dfe663d4b6ae8e2b046f82ea092571b6b2871d96020161097a646e73636c6f756403636f6d00cb631801020162c02acb631901020163c02acb631a01020164c02acb631b01020166c02a724310cc020167c02a2a3e0210030169c02a24018d0000010000000000000000000103016ac02a24018d0000020000000000000000000101c02801c03e01c04701c05001c05901c06201c06b01c080,
  0x01010100009e59080220674e5d0fc3d6a5ee42486211ce3be970a6b6dde79ba48553732c1a929715302e020476306e30036e69630a756e69766572736974790041161413020476306e31c02d41161513020476306e32c02d41161613020476306e33c02da1e80a13020476326e30c02d41161713020476326e31c02da1e80b1303c0282a01884000160000000000000000001903c0422a01884000170000000000000000001903c04e2a01884000180000000000000000001903c05a2a01884000f40000000000000000001903c0662a01884000190000000000000000001903c0722a01884000f50000000000000000001901c02801c04201c04e01c05a01c06601c072,
  0x01440100008b99080114a6654717b1b97394de61bfe6d043459ba3a0112a008b990802200dfccfc8e90286393539413d9f228fd96f7b08b8f15143020c07e32e3d25493600e2240801143b49fdc11daee5187a4170a5badf77a917bce48100e224080220c156dd21b3b96a50fa94be322cdf6f0144e86c9597e4aa56d53e9b490c94a53700fb1d080114e0d6f2ecbe3f28f3f59d4193198240f9966011e800fb1d0802203b4dd0febfbd51cb5f15db43ccfc832de0989445d6bb70c31a9b96f681cc6c77020161036e696303756e6f00c2a9da15020162c0c4b9184015020163c0c4d412f815020164c0c4d412f91503c0c22001067c13cc0000000000000001002103c0d22a042b0013cc0000000000000001002103c0db2a042b0013ee0000000000000000002103c0e42a042b0013ff0000000000000000002101c0c201c0d201c0db01c0e4,
  0x01e700000009a70d02203997a266fb5806ed43e8fa8df8d9e492673fb4c8d35747346be522fa5123317f02016103646e7302627200c8db940a020162c02ac8bd290a020163c02ac8c0e90a020164c02ac8db9a0a020165c02ac8e5f80a020166c02ac8db9f0a03c028200112f800060000000000000000001003c037200112f800080000000000000000001003c040200112f8000a0000000000000000001003c049200112f800040000000000000000001003c052200112f800020000000000000000001003c05b200112f8000c0000000000000000001001c02801c03701c04001c04901c05201c05b,
  0x01ae00000007d208022028e49220a4b3bc519f2cd5800b8c96db682a9651eec3bb19ff98d670cbe4be3602026130036e696303757073004116f00102026132c02b4116f30102026230c02b4116f10102026330c02b4116f20103c0282a01884000ea0000000000000000000103c0392a01884000ed0000000000000000000103c0432a01884000eb0000000000000000000103c04d2a01884000ec0000000000000000000101c02801c03901c04301c04d,
  0x01e9000000b4400802200c67e6017124bf19d50be565cc486ff3cfe2a278fe2e5983ff97b2a453386419020162056363746c64027573009c9a7d46020166c02ad1ad3a4602016bc02a9c9a8046020177c02a25d1c00f020178c02a25d1c20f020179c02a25d1c40f03c02820010502ad090000000000000000002903c0392001050036820000000000000000001103c04220010503e2390000000000000003000103c04b20010dcd00010000000000000000001503c05420010dcd00020000000000000000001503c05d20010dcd00030000000000000000001501c02801c03901c04201c04b01c05401c05d,
  0x01160100004d12080220e85a089d69f869cf923df395f279f1c92bd136a33b60988748b0186e12f7b88e020161036e696302757900a4498005020161066c6163746c64036f726700c800440a020162c02aa4498046020164c02a4116290102026e7303646e7302627200c8a0000502036e733109616e74656c6461746103636f6dc02ec8281efe02036e7332c070c828dcfe03c0282001132800060000000000000000000503c03728010014a0000000000000000000001003c0532a01884001bb0000000000000000000103c05c200112ff00000a20000000000000000503c06c280000a000531001000000000000000103c085280000a000531002000000000000000101c02801c03701c04a01c05301c05c01c06c01c085,
  0x018b0000000e65080220d058d5a354efb638058dabd7e0310af31bd168ffdccf49405750bf4d5ce5ae0b02036e733102757a005bd459f402036e7332c02c515fe1f502036e7333c02cb94a061d02036e7334c02cb9c4d40702036e7335c02cd90c518102036e7336c02c5345812102036e7337c02c68ee51f701c02801c03501c04001c04b01c05601c06101c06c,
  0x01fb000002027661056363746c640761757468646e730472697065036e657400c100097b0203646e73036e696302697400c00cc00502046a6f686e077661746963616e02766100d44d006e020473657468056e616d6578c02ac1c9280702066f7369726973c04ec1c9280602076d69636861656cc038d44d000203c0022001067c00e00000000000000000012303c0222a000d4000010001000000000000000503c0332a0100b800000001021200770000011003c049200107f80010f00a000000000000000703c05b200107f80010f00a000000000000000603c0692a0100b800000001021200770000000201c00201c02201c03301c04901c05b01c069,
  0x0100010000cf1608022063af40a94f8066d7f6ad7fcf89dc7111407c1da7a217ffc6c7f2f84a87cc9fc0020476306e30036e6963097661636174696f6e73004116143a020476306e31c02d4116153a020476306e32c02d4116163a020476306e33c02da1e80a3a020476326e30c02d4116173a020476326e31c02da1e80b3a03c0282a01884000160000000000000000005803c0412a01884000170000000000000000005803c04d2a01884000180000000000000000005803c0592a01884000f40000000000000000005803c0652a01884000190000000000000000005803c0712a01884000f50000000000000000005801c02801c04101c04d01c05901c06501c071,
  0x01b4000000ca6508022093baec1bc806c42034f1ba91345d8aa439242ea114157951bf6b7e9f79fc9e0c0203616331056e73746c6403636f6d00c02aad1e0203616332c02cc02aae1e0203616333c02cc02aaf1e0203616334c02cc02ab01e03c0282001050001200000000000000000003003c03c2001050001210000000000000000003003c0472001050001220000000000000000003003c0522001050001230000000000000000003001c02801c03c01c04701c052,
  0x01b4000000da67080220b218841ec23f35d6a8cb53c6bc78c73cf507460f03bf19ffe513a427afe0473a0203616331056e73746c6403636f6d00c02aad1e0203616332c02cc02aae1e0203616333c02cc02aaf1e0203616334c02cc02ab01e03c0282001050001200000000000000000003003c03c2001050001210000000000000000003003c0472001050001220000000000000000003003c0522001050001230000000000000000003001c02801c03c01c04701c052,
  0x0112010000d4770802208e38107261b61499f2e57a72e762ef501798a0462cb69e6afcc9c4a2539e6bff02026130056363746c640b6166696c6961732d6e737404696e666f00c7fe3b0102026132c02bc7f9740102026230056363746c640b6166696c6961732d6e7374036f726700c7fe3c0102026232c055c7f97c0102026330c02bc7fe3d0102026430c055c7fe3e0103c0282001050000250000000000000000000103c0482001050000440000000000000000000103c0522001050000260000000000000000000103c07120010500004c0000000000000000000103c07b2001050000270000000000000000000103c0852001050000280000000000000000000101c02801c04801c05201c07101c07b01c085,
  0x01e1000000370c08022008c74712d9ee7ab88bad9ea011379e2ac419102e209b83cb9c4ee6cfb5ca7e65020161066c6163746c64036f726700c800440a02036e7333036e696302766500be09813802036e7334c03fbeca802b02036e7335c03f2daf165802036e7336c03f2daf160402097373646e732d746c64036e696302636c00c807050e03c02828010014a0000000000000000000001003c057280100188800000318babefffe61d08b03c0622801001888000001000000000000000403c06d2001139802760000020000070005001401c02801c03b01c04c01c05701c06201c06d,
  0x01b00000003418080220612d11e84db7671f5dc9b54fb8944d57474de91ca498ca80b6ebc05c162c3af002026130036e6963057665676173004116441102026132c02b4116471102026230c02b4116451102026330c02b4116461103c0282a01884000420000000000000000001703c03b2a01884000450000000000000000001703c0452a01884000430000000000000000001703c04f2a01884000440000000000000000001701c02801c03b01c04501c04f,
  0x01ff000000a87c0802205ad3e6b74a570bbd7ea2f84c87e6bfc6c305233383d14f29074f3e6e4a03a810020476306e30036e69630876656e7475726573004116180b020476306e31c02d4116190b020476306e32c02d41161a0b020476306e33c02da1e80c0b020476326e30c02d41161b0b020476326e31c02da1e80d0b03c0282a018840001a0000000000000000001103c0402a018840001b0000000000000000001103c04c2a018840001c0000000000000000001103c0582a01884000f60000000000000000001103c0642a018840001d0000000000000000001103c0702a01884000f70000000000000000001101c02801c04001c04c01c05801c06401c070,
  0x01b400000087b40802207468287539bbb69b7d1fce14b16e16b6f75b6a1a8e50832dc333fd0f177c633f0203616331056e73746c6403636f6d00c02aad1e0203616332c02cc02aae1e0203616333c02cc02aaf1e0203616334c02cc02ab01e03c0282001050001200000000000000000003003c03c2001050001210000000000000000003003c0472001050001220000000000000000003003c0522001050001230000000000000000003001c02801c03c01c04701c052,
  0x01be0000006616080220925ee924b5bc6876443e476c16eaf5bf02885acadbdf27ca2c87be8eeb7f3b4100d29a0802203fb290c372a8e1f1662e968c7836f7856e493f96f0a6603de8e882f54bae577c02016103646e73036e69630c766572736963686572756e6700c200190d02016dc050c2001a0202016ec050c200180203c04e2001067800200000000000000000001303c06b2001067c10e00000000000000000000203c0742001067800240000000000000000000201c04e01c06b01c074,
  0x01fa0000004d980802202b1b3ab9f4fdd837fc9f9c7875fa916b6a22c3ef5c0c04d5d3235e42828cf6a8020476306e30036e6963037665740041162031020476306e31c02d41162131020476306e32c02d41162231020476306e33c02da1e81031020476326e30c02d41162331020476326e31c02da1e8113103c0282a01884000220000000000000000004903c03b2a01884000230000000000000000004903c0472a01884000240000000000000000004903c0532a01884000fa0000000000000000004903c05f2a01884000250000000000000000004903c06b2a01884000fb0000000000000000004901c02801c03b01c04701c05301c05f01c06b,
  0x01830000020161036e696302766700c2a9da68020162c004b9184068020163c004d412f868020164c004d412f96803c0022001067c13cc0000000000000001010403c0112a042b0013cc0000000000000001010403c01a2a042b0013ee0000000000000000010403c0232a042b0013ff0000000000000000010401c00201c01101c01a01c023,
  0x0163000002036e7333036e696302766900b911ece60203706368c006cc3dd885020761757468313030026e73027575036e657400c60601ca020761757468313130c026c606017203c013200105000014613300ad00000000000101c00201c01301c01e01c036,
  0x01fd00000003ee080220ee19922420d5f38807e2d61a8d0a7811e2c622bdf65cbdf56ab83ff4569ff4b3020476306e30036e6963067669616a65730041161820020476306e31c02d41161920020476306e32c02d41161a20020476306e33c02da1e80c20020476326e30c02d41161b20020476326e31c02da1e80d2003c0282a018840001a0000000000000000003203c03e2a018840001b0000000000000000003203c04a2a018840001c0000000000000000003203c0562a01884000f60000000000000000003203c0622a018840001d0000000000000000003203c06e2a01884000f70000000000000000003201c02801c03e01c04a01c05601c06201c06e,
  0x01fc000000a6210802204cafbfedab7097a3727581bcc76ff8eb10b0c144b96f77cf48d7814e21d8d3a7020476306e30036e696305766964656f0041161828020476306e31c02d41161928020476306e32c02d41161a28020476306e33c02da1e80c28020476326e30c02d41161b28020476326e31c02da1e80d2803c0282a018840001a0000000000000000004003c03d2a018840001b0000000000000000004003c0492a018840001c0000000000000000004003c0552a01884000f60000000000000000004003c0612a018840001d0000000000000000004003c06d2a01884000f70000000000000000004001c02801c03d01c04901c05501c06101c06d,
  0x01ae000000fbda0802204dd8d2a7168f0358e8945f0558e2a643f3e941f6440fd26aa0d91b4e2b54b0e102026130036e696303766967004116301902026132c02b4116331902026230c02b4116311902026330c02b4116321903c0282a018840002e0000000000000000002503c0392a01884000310000000000000000002503c0432a018840002f0000000000000000002503c04d2a01884000300000000000000000002501c02801c03901c04301c04d,
  0x01b1000000c71b0802201809dba33d16e851270758c3ef774d65984af94f7c3de9b3470167ce19c22def02026130036e69630676696b696e67004116c01102026132c02b4116c31102026230c02b4116c11102026330c02b4116c21103c0282a01884000ba0000000000000000001703c03c2a01884000bd0000000000000000001703c0462a01884000bb0000000000000000001703c0502a01884000bc0000000000000000001701c02801c03c01c04601c050,
  0x01fd0000007dbf080220ce7cf1b69581dc8a7d97b190d57a0d90de2f35f3f906e15984163f3bd62b6a7a020476306e30036e69630676696c6c61730041161c3e020476306e31c02d41161d3e020476306e32c02d41161e3e020476306e33c02da1e80e3e020476326e30c02d41161f3e020476326e31c02da1e80f3e03c0282a018840001e0000000000000000006203c03e2a018840001f0000000000000000006203c04a2a01884000200000000000000000006203c0562a01884000f80000000000000000006203c0622a01884000210000000000000000006203c06e2a01884000f90000000000000000006201c02801c03e01c04a01c05601c06201c06e,
  0x01fa00000064ba080220ba89439b43dd4c15ad9d0bc69198518041f5a9e269ce479569f0e42017d8a9a5020476306e30036e69630376696e0041161c15020476306e31c02d41161d15020476306e32c02d41161e15020476306e33c02da1e80e15020476326e30c02d41161f15020476326e31c02da1e80f1503c0282a018840001e0000000000000000002103c03b2a018840001f0000000000000000002103c0472a01884000200000000000000000002103c0532a01884000f80000000000000000002103c05f2a01884000210000000000000000002103c06b2a01884000f90000000000000000002101c02801c03b01c04701c05301c05f01c06b,
  0x01e80000009edd080220eb70a1f31a3c3b26e464dd98a97970001fc220021dea2b4a5dda68de2c1dbf00020161036e6963037669700025d1c00a020162c02a25d1c20a020163c02a25d1c40a020178c02a9c9aac52020179c02a9c9aad5202017ac02a9c9aae5203c02820010dcd00010000000000000000001003c03820010dcd00020000000000000000001003c04120010dcd00030000000000000000001003c04a261000a110740000000000000001008203c053261000a110750000000000000001008203c05c261000a110760000000000000001008201c02801c03801c04101c04a01c05301c05c,
  0x0141010000a3ca08022064e74557cc76dd3bb05f8eb86ebf531b186d95e91bfdaa09f35fd620d960603a0204646e7331036e69630676697267696e00d5f8db280204646e7332c02d673153280204646e7333c02dd5f8df280204646e7334c02d2be633280204646e7361c02d9c9a64030204646e7362c02d9c9a65030204646e7363c02d9c9a66030204646e7364c02d9c9a670303c0282a01061804030000000000000000004003c03e2401fd8004030000000000000000004003c04a2a01061804070000000000000000004003c0562401fd8004070000000000000000004003c06220010502ad090000000000000000000303c06e200105022eda0000000000000000000303c07a261000a110090000000000000000000303c086261000a110100000000000000000000301c02801c03e01c04a01c05601c06201c06e01c07a01c086,
  0x01b4000000da37080220b7d4dd6e17c137c8d9121055ec796100868870d2d31ac0dc5a2ce1972f692cb40203616331056e73746c6403636f6d00c02aad1e0203616332c02cc02aae1e0203616333c02cc02aaf1e0203616334c02cc02ab01e03c0282001050001200000000000000000003003c03c2001050001210000000000000000003003c0472001050001220000000000000000003003c0522001050001230000000000000000003001c02801c03c01c04701c052,
  0x01fd000000e2e40802204e659852dd1934d5e78a5e6600ebad107682821e3bb5991f8b4bf8dfbc6927ff020476306e30036e696306766973696f6e004116180f020476306e31c02d4116190f020476306e32c02d41161a0f020476306e33c02da1e80c0f020476326e30c02d41161b0f020476326e31c02da1e80d0f03c0282a018840001a0000000000000000001503c03e2a018840001b0000000000000000001503c04a2a018840001c0000000000000000001503c0562a01884000f60000000000000000001503c0622a018840001d0000000000000000001503c06e2a01884000f70000000000000000001501c02801c03e01c04a01c05601c06201c06e,
  0x01c500000030620801144bcbdaa886b0dce29c68a90c49a964d61e95c59f003062080220cfae0771825b368beb345f67a1a08a64415af41076486890eb62c79a32113f71020161036e6963047669766100c2a9da1c020162c044b918401c020163c044d412f81c020164c044d412f91c03c0422001067c13cc0000000000000001002803c0532a042b0013cc0000000000000001002803c05c2a042b0013ee0000000000000000002803c0652a042b0013ff0000000000000000002801c04201c05301c05c01c065,
  0x01f300000061f0080220d450ebd4dcf5f47b529804dd9dfca7d2af45d3c6b0e4f72e0393f0512196d5f1020161036e6963047669766f0025d1c009020162c02a25d1c209020163c02a25d1c40902036e733103646e73c02a9c9aa93902036e7332c04f9c9aaa3902036e7333c04f9c9aab3903c02820010dcd00010000000000000000000903c03920010dcd00020000000000000000000903c04220010dcd00030000000000000000000903c04b261000a110710000000000000001003903c05a261000a110720000000000000001003903c065261000a110730000000000000001003901c02801c03901c04201c04b01c05a01c065,
  0x01170100002446080220f04e1190a18d3e63b8fd5261768ef06f8fa5f27f80f39c54aa81753b203e05e700d47d0802202d655a3f1a0c26ad210018757ffbb754b2c4b167673283ddc1496c614ae7a9f5020161056e737365740a766c61616e646572656e00c2000601020162c050c2002501020163c050c2002b01020164c050c2002c01020179c050781dfd0802017ac050c200191303c04e2001067800090000000000000000000103c0672001067800640000000000000000000103c0702001067800680000000000000000000103c07920010678006c0000000000000000000103c08220010dcd00070000000000000000000803c08b2001067800200000000000000000001901c04e01c06701c07001c07901c08201c08b,
  0x01470100000cbc080114913c652b4006deac045b945f4ffcbc1065645421000cbc0802205a58c19af266077ffe16c2668812796fa8193661af569dbceb177f911b5e61670201610b646e732d7365727665727302766e00c2000112020162c044cb774969020163c044cb772669020164c044cb772c69020165c044cb773c69020166c044cb774469020167c044cc3dd873020168c044ca2f8e6903c0422001067800040000000000000000001203c05920010dc800010002000000000000010503c06220010dc8c0000007000000000000010503c06b20010dc880000002000000000000010503c07420010dc810000002000000000000010503c07d20010dc8d0000002000000000000010503c086200105000014611500ad00000000000103c08f20010dc860000000000000000000010501c04201c05901c06201c06b01c07401c07d01c08601c08f,
  0x01ea000000237d0802204a2f917b298b97a57bf484931c74134a82b3ef0ce16da123093c509eb9ea153e020161036e696305766f646b610025d1c00a020162c02a25d1c20a020163c02a25d1c40a020178c02a9c9aac52020179c02a9c9aad5202017ac02a9c9aae5203c02820010dcd00010000000000000000001003c03a20010dcd00020000000000000000001003c04320010dcd00030000000000000000001003c04c261000a110740000000000000001008203c055261000a110750000000000000001008203c05e261000a110760000000000000001008201c02801c03a01c04301c04c01c05501c05e,
  0x01b5000000cd1b08022010dc75d4a1277934c86bd53c004ec0109396f5cdca83c2b25c09cbdfe59ff6e502026130036e69630a766f6c6b73776167656e004116d01902026132c02b4116d31902026230c02b4116d11902026330c02b4116d21903c0282a01884000ca0000000000000000002503c0402a01884000cd0000000000000000002503c04a2a01884000cb0000000000000000002503c0542a01884000cc0000000000000000002501c02801c04001c04a01c054,
  0x01b4000000f9db0802209e66e85052005ec24be53611a1cd19af98dd649dfe54a90667849582f60b1c4a0203616331056e73746c6403636f6d00c02aad1e0203616332c02cc02aae1e0203616333c02cc02aaf1e0203616334c02cc02ab01e03c0282001050001200000000000000000003003c03c2001050001210000000000000000003003c0472001050001220000000000000000003003c0522001050001230000000000000000003001c02801c03c01c04701c052,
  0x01af000000f51d080220101d2ae9c31fbe10078e74d477010aa5c8966d814421123a893b8b0e7b46891a02026130036e696304766f7465004116a80902026132c02b4116ab0902026230c02b4116a90902026330c02b4116aa0903c0282a01884000a20000000000000000000903c03a2a01884000a50000000000000000000903c0442a01884000a30000000000000000000903c04e2a01884000a40000000000000000000901c02801c03a01c04401c04e,
  0x01eb000000243d080220721cd786aa7f964ef0b943a67beaa4333756f65771475f91678c536616e2037f020161036e696306766f74696e670025d1c00a020162c02a25d1c20a020163c02a25d1c40a020178c02a9c9aac52020179c02a9c9aad5202017ac02a9c9aae5203c02820010dcd00010000000000000000001003c03b20010dcd00020000000000000000001003c04420010dcd00030000000000000000001003c04d261000a110740000000000000001008203c056261000a110750000000000000001008203c05f261000a110760000000000000001008201c02801c03b01c04401c04d01c05601c05f,
  0x01af00000068fb080220847371b1a0a21ae134a0e0c15b0e505bb4c88a26ed401daff4f4e8794c5b31a102026130036e696304766f746f004116a80102026132c02b4116ab0102026230c02b4116a90102026330c02b4116aa0103c0282a01884000a20000000000000000000103c03a2a01884000a50000000000000000000103c0442a01884000a30000000000000000000103c04e2a01884000a40000000000000000000101c02801c03a01c04401c04e,
  0x01fd00000063e2080220e17ea6fe786d37d2884b4eb52ae275ec41c4265aa252e2469396ff49878170c5020476306e30036e696306766f79616765004116201c020476306e31c02d4116211c020476306e32c02d4116221c020476306e33c02da1e8101c020476326e30c02d4116231c020476326e31c02da1e8111c03c0282a01884000220000000000000000002803c03e2a01884000230000000000000000002803c04a2a01884000240000000000000000002803c0562a01884000fa0000000000000000002803c0622a01884000250000000000000000002803c06e2a01884000fb0000000000000000002801c02801c03e01c04a01c05601c06201c06e,
  0x01b3000000c4ec0a022049257111e03ad5f8c450f8330f101b87b84f82251fa54ce67c832b7eefa4523202036e733105746c646e730276750025d1c00602036e7332c02c25d1c20602036e7333c02c25d1c40602036e7334c02c25d1c60603c02820010dcd00010000000000000000000603c03b20010dcd00020000000000000000000603c04620010dcd00030000000000000000000603c05120010dcd00040000000000000000000601c02801c03b01c04601c051,
  0x01f5000000e9ec080220866e3e1bff48e70b4ae4a4c05cf7e2c552fdb5cfaf26a951bf0aee8445091a01020161036e6963067675656c6f730025d1c00a020162c02a25d1c20a020163c02a25d1c40a02036e733103646e73c02a9c9a90af02036e7332c0519c9a91af02036e7333c0519c9a9faf03c02820010dcd00010000000000000000001003c03b20010dcd00020000000000000000001003c04420010dcd00030000000000000000001003c04d261000a11071000000000000000000af03c05c261000a11072000000000000000000af03c067261000a11073000000000000000000af01c02801c03b01c04401c04d01c05c01c067,
  0x0140010000fbe00802205a296b3d4cdaaf2bb3b243ec31f31b283782bd5a930f84741aa3dd3ccded6a6c0204646e7331036e69630577616c657300d5f8db020204646e7332c02d673153020204646e7333c02dd5f8df020204646e7334c02d2be633020204646e7361c02d9c9a64030204646e7362c02d9c9a65030204646e7363c02d9c9a66030204646e7364c02d9c9a670303c0282a01061804030000000000000000000203c03d2401fd8004030000000000000000000203c0492a01061804070000000000000000000203c0552401fd8004070000000000000000000203c06120010502ad090000000000000000000303c06d200105022eda0000000000000000000303c079261000a110090000000000000000000303c085261000a110100000000000000000000301c02801c03d01c04901c05501c06101c06d01c07901c085,
  0x01b4000000a464080220114198bd39750b2e840c302b523e065c55be0152955ddd7d5408a3d73618954d0203616331056e73746c6403636f6d00c02aad1e0203616332c02cc02aae1e0203616333c02cc02aaf1e0203616334c02cc02ab01e03c0282001050001200000000000000000003003c03c2001050001210000000000000000003003c0472001050001220000000000000000003003c0522001050001230000000000000000003001c02801c03c01c04701c052,
  0x01eb000000d2040802201cb0d022fc25c7247a551e0a02b46025d83dfd7185cc1f016c93494c471f0e91020161036e69630677616c7465720025d1c009020162c02a25d1c209020163c02a25d1c409020178c02a9c9aac52020179c02a9c9aad5202017ac02a9c9aae5203c02820010dcd00010000000000000000000903c03b20010dcd00020000000000000000000903c04420010dcd00030000000000000000000903c04d261000a110740000000000000001008203c056261000a110750000000000000001008203c05f261000a110760000000000000001008201c02801c03b01c04401c04d01c05601c05f,
  0x01ac00000051e9080220e686eb5367b243e5dfd5c5faadb23b0a52172b9cf5c72b28836be2af9402dadd020161097a646e73636c6f756403636f6d00cb631801020162c02acb631901020163c02acb631a01020164c02acb631b01020166c02a724310cc020167c02a2a3e0210030169c02a24018d0000010000000000000000000103016ac02a24018d0000020000000000000000000101c02801c03e01c04701c05001c05901c06201c06b01c080,
  0x01420100000d4f080220ac4cb98b121b9214b4432a123bce7930f5152bf7a496eebd7602731ab44615e30204646e7331036e69630777616e67676f7500d5f8da560204646e7332c02d673152560204646e7333c02dd5f8de560204646e7334c02d2be632560204646e7361c02d9c9a64030204646e7362c02d9c9a65030204646e7363c02d9c9a66030204646e7364c02d9c9a670303c0282a01061804020000000000000000008603c03f2401fd8004020000000000000000008603c04b2a01061804060000000000000000008603c0572401fd8004060000000000000000008603c06320010502ad090000000000000000000303c06f200105022eda0000000000000000000303c07b261000a110090000000000000000000303c087261000a110100000000000000000000301c02801c03f01c04b01c05701c06301c06f01c07b01c087,
  0x01fc000000d5f1080220df912e3dd3fd5d0961ccd55abbcfb99e3cadba09ff443e3f1a7bebae400d57ad020476306e30036e69630577617463680041162030020476306e31c02d41162130020476306e32c02d41162230020476306e33c02da1e81030020476326e30c02d41162330020476326e31c02da1e8113003c0282a01884000220000000000000000004803c03d2a01884000230000000000000000004803c0492a01884000240000000000000000004803c0552a01884000fa0000000000000000004803c0612a01884000250000000000000000004803c06d2a01884000fb0000000000000000004801c02801c03d01c04901c05501c06101c06d,
  0x01b2000000f1030802209110905c79b0c95933eb1f037a0d7a150819f1d1553ad89187a7849039a97ebe02026130036e69630777617463686573004116cc0102026132c02b4116cf0102026230c02b4116cd0102026330c02b4116ce0103c0282a01884000c60000000000000000000103c03d2a01884000c90000000000000000000103c0472a01884000c70000000000000000000103c0512a01884000c80000000000000000000101c02801c03d01c04701c051,
  0x01fc0000001927080220f994e24ad5e878714e771fa57227ea081f681b270d9faa5ba4cade422ee1aa3f02036e733103646e73036e69630777656174686572009c9a90b202036e7332c02c9c9a91b202036e7333c02c9c9a9fb202036e7334c02c9c9a9cb202036e7335c02c9c9a9db202036e7336c02c9c9a9eb203c028261000a11071000000000000000000b203c042261000a11072000000000000000000b203c04d261000a11073000000000000000000b203c058261000a11074000000000000000000b203c063261000a11075000000000000000000b203c06e261000a11076000000000000000000b201c02801c04201c04d01c05801c06301c06e,
  0x01030100001e6d08022079d6daaefc15969665f10e9de136425c117994c302f41ca70f1157be61fb938402036e733103646e73036e69630e776561746865726368616e6e656c009c9a90b302036e7332c02c9c9a91b302036e7333c02c9c9a9fb302036e7334c02c9c9a9cb302036e7335c02c9c9a9db302036e7336c02c9c9a9eb303c028261000a11071000000000000000000b303c049261000a11072000000000000000000b303c054261000a11073000000000000000000b303c05f261000a11074000000000000000000b303c06a261000a11075000000000000000000b303c075261000a11076000000000000000000b301c02801c04901c05401c05f01c06a01c075,
  0x01f500000057b2080220e2447935904a4e1da9f3695f56055a2132ffc565a4ea2ddcf22c5aae0605a2fd020161036e69630677656263616d0025d1c00a020162c02a25d1c20a020163c02a25d1c40a02036e733103646e73c02a9c9aa93c02036e7332c0519c9aaa3c02036e7333c0519c9aab3c03c02820010dcd00010000000000000000001003c03b20010dcd00020000000000000000001003c04420010dcd00030000000000000000001003c04d261000a110710000000000000001003c03c05c261000a110720000000000000001003c03c067261000a110730000000000000001003c01c02801c03b01c04401c04d01c05c01c067,
  0x01b4000000801f08022067f60d0f656284c11307fbc8402e280ba0e53d83f601ec4adf2eb54fca93aad90203616331056e73746c6403636f6d00c02aad1e0203616332c02cc02aae1e0203616333c02cc02aaf1e0203616334c02cc02ab01e03c0282001050001200000000000000000003003c03c2001050001210000000000000000003003c0472001050001220000000000000000003003c0522001050001230000000000000000003001c02801c03c01c04701c052,
  0x01c8000000bac708011434c5e08b2f09248a85be31cd465db919af06da9000bac7080220cb5f31743f17c1c1641d7ecc4c7dc40217363645e7ac25c509393c6709d933a8020161036e6963077765627369746500c2a9da34020162c044b9184034020165c044d412f834020166c044d412f93403c0422001067c13cc0000000000000001005203c0562a042b0013cc0000000000000001005203c05f2a042b0013ee0000000000000000005203c0682a042b0013ff0000000000000000005201c04201c05601c05f01c068,
  0x013f010000ec9b08022032ed00d841e724eaa980472283420ee9de48905e1b04709e79fc418c08fa15610204646e733105656d646e7302756b00d5f8d9990204646e7332c02d673151990204646e7333c02dd5f8dd990204646e7334c02d2be631990204646e7361c02d9c9a64030204646e7362c02d9c9a65030204646e7363c02d9c9a66030204646e7364c02d9c9a670303c0282a01061804010000000000000000015303c03c2401fd8004010000000000000000015303c0482a01061804050000000000000000015303c0542401fd8004050000000000000000015303c06020010502ad090000000000000000000303c06c200105022eda0000000000000000000303c078261000a110090000000000000000000303c084261000a110100000000000000000000301c02801c03c01c04801c05401c06001c06c01c07801c084,
  0x01ec0000001f060802206bcbb57873bad3ef4bfc74da093b04a5232bbc92c68579dd6776f326467510fd020161036e69630777656464696e670025d1c00a020162c02a25d1c20a020163c02a25d1c40a020178c02a9c9aac52020179c02a9c9aad5202017ac02a9c9aae5203c02820010dcd00010000000000000000001003c03c20010dcd00020000000000000000001003c04520010dcd00030000000000000000001003c04e261000a110740000000000000001008203c057261000a110750000000000000001008203c060261000a110760000000000000001008201c02801c03c01c04501c04e01c05701c060,
  0x01b00000009ec2080220930edcd3b0036bcdebf43862ad49f6b7486dfecfc2e42f769ab66f21938cf11202026130036e696305776569626f004116382902026132c02b41163b2902026230c02b4116392902026330c02b41163a2903c0282a01884000360000000000000000004103c03b2a01884000390000000000000000004103c0452a01884000370000000000000000004103c04f2a01884000380000000000000000004101c02801c03b01c04501c04f,
  0x01b4000000a87e0802201f9e4441191642a39a48cec8dedbda9120d85d460cbaf2bf037f3ae3a8e8c7ee0203616331056e73746c6403636f6d00c02aad1e0203616332c02cc02aae1e0203616333c02cc02aaf1e0203616334c02cc02ab01e03c0282001050001200000000000000000003003c03c2001050001210000000000000000003003c0472001050001220000000000000000003003c0522001050001230000000000000000003001c02801c03c01c04701c052,
  0x01ad00000047d90d0220c67316fa4c43d54d07c93074eddb7914346c4132726a258cd2acc3d4877081e5020164036e696302667200c200090102016503657874c02ac1b09016020166c039c2926a2e020167c039c200240103c02820010678000c0000000000000000000103c0372a000d7800000102019301760144002203c0442001067c10100011000000000000005303c04d20010678004c0000000000000000000101c02801c03701c04401c04d,
  0x01cd0000000446080220b35d9bcf8c51a71118e63f2d38a06e25418db690dbabfb35f0cf9635959b5e5b0208616e7963617374390769726f6e646e73036e657400c3fd400b0209616e79636173743130c031c3fd400c0209616e79636173743233c031c3fd410b0209616e79636173743234c031c3fd410c03c0282a0105b000040000000000000000000b03c0432a0105b000040000000000000000000c03c0542a0105b000050000000000000000000b03c0652a0105b000050000000000000000000c01c02801c04301c05401c065,
  0x01a2000000e221080220e2aa9ba196c7d4f10a8320a710fc24ad4bc86ce362239c307af3b875d5cf44c70203646e7308727963652d72737003636f6d00c2000b7202036e733103646e7308627573696e657373009d5acd8a02036e7331c02cc138cc9903c02820010678000e0114000000000000005303c03f2a0104f802524295000000009d5acd8a03c0562a0c8f4000000701000000000000015301c02801c03f01c056,
  0x01e90000002a760802203c2ca6a68be31fd1222eb66aaa693c6c4991e6f8737ca62b1427b3c9e3e67539020161036e69630477696b690025d1c00a020162c02a25d1c20a020163c02a25d1c40a020178c02a9c9aac52020179c02a9c9aad5202017ac02a9c9aae5203c02820010dcd00010000000000000000001003c03920010dcd00020000000000000000001003c04220010dcd00030000000000000000001003c04b261000a110740000000000000001008203c054261000a110750000000000000001008203c05d261000a110760000000000000001008201c02801c03901c04201c04b01c05401c05d,
  0x01fa000000fc7008022097386ec38fab6b1d4f0c1bcdbc8f670d92a474996eddcc24786a028a249e2c23020161036e69630b77696c6c69616d68696c6c0025d1c009020162c02a25d1c209020163c02a25d1c40902036e733103646e73c02a9c9a90b502036e7332c0569c9a91b502036e7333c0569c9a9fb503c02820010dcd00010000000000000000000903c04020010dcd00020000000000000000000903c04920010dcd00030000000000000000000903c052261000a11071000000000000000000b503c061261000a11072000000000000000000b503c06c261000a11073000000000000000000b501c02801c04001c04901c05201c06101c06c,
  0x01f2000000c1b10802204466f9d8d5814557b154063e5b82925059115249b97f19c8b091c6cf06407d57020161036e69630377696e0025d1c00a020162c02a25d1c20a020163c02a25d1c40a02036e733103646e73c02a9c9a90b602036e7332c04e9c9a91b602036e7333c04e9c9a9fb603c02820010dcd00010000000000000000001003c03820010dcd00020000000000000000001003c04120010dcd00030000000000000000001003c04a261000a11071000000000000000000b603c059261000a11072000000000000000000b603c064261000a11073000000000000000000b601c02801c03801c04101c04a01c05901c064,
  0x01b4000000adee080220f6dda2f2e3e99e70c47f0393f0154d1641435abdf20e5e5c0a8416c0da34a9220203616331056e73746c6403636f6d00c02aad1e0203616332c02cc02aae1e0203616333c02cc02aaf1e0203616334c02cc02ab01e03c0282001050001200000000000000000003003c03c2001050001210000000000000000003003c0472001050001220000000000000000003003c0522001050001230000000000000000003001c02801c03c01c04701c052,
  0x01fb000000107208022016016cd0c2432421b72d072422278999c3c2772353e3d5214d25be24b4d521cb020476306e30036e69630477696e65004116200b020476306e31c02d4116210b020476306e32c02d4116220b020476306e33c02da1e8100b020476326e30c02d4116230b020476326e31c02da1e8110b03c0282a01884000220000000000000000001103c03c2a01884000230000000000000000001103c0482a01884000240000000000000000001103c0542a01884000fa0000000000000000001103c0602a01884000250000000000000000001103c06c2a01884000fb0000000000000000001101c02801c03c01c04801c05401c06001c06c,
  0x01f6000000af2a080220e0735a12e87e2c61da2a863567d0d12d3754b2bc42237c53f08280f833f9b42a020161036e69630777696e6e6572730025d1c009020162c02a25d1c209020163c02a25d1c40902036e733103646e73c02a9c9a90b702036e7332c0529c9a91b702036e7333c0529c9a9fb703c02820010dcd00010000000000000000000903c03c20010dcd00020000000000000000000903c04520010dcd00030000000000000000000903c04e261000a11071000000000000000000b703c05d261000a11072000000000000000000b703c068261000a11073000000000000000000b701c02801c03c01c04501c04e01c05d01c068,
  0x01c40000001c5b080114f4ccd846a0b86daf9ce33371fb93362d4dc4addf001c5b080220e7cb7561099040db08978f7696320ddaf323f52ddbf951fa5f4c44b2f34e38bd020161036e696303776d6500c2a9da1f020162c044b918401f020163c044d412f81f020164c044d412f91f03c0422001067c13cc0000000000000001003103c0522a042b0013cc0000000000000001003103c05b2a042b0013ee0000000000000000003103c0642a042b0013ff0000000000000000003101c04201c05201c05b01c064,
  0x01b8000000e37a08022097dce05d28c78af0b76524df031d5fad0e1901b5ae12515be48fc758af56e47302026130036e69630d776f6c746572736b6c75776572004116cc1902026132c02b4116cf1902026230c02b4116cd1902026330c02b4116ce1903c0282a01884000c60000000000000000002503c0432a01884000c90000000000000000002503c04d2a01884000c70000000000000000002503c0572a01884000c80000000000000000002501c02801c04301c04d01c057,
  0x01ed0000009733080220e4254780378e282920ae5d44e210da28bf5d7fadb0afca33e400b74c5086ddc0020161036e696308776f6f64736964650025d1c009020162c02a25d1c209020163c02a25d1c409020178c02a9c9aac52020179c02a9c9aad5202017ac02a9c9aae5203c02820010dcd00010000000000000000000903c03d20010dcd00020000000000000000000903c04620010dcd00030000000000000000000903c04f261000a110740000000000000001008203c058261000a110750000000000000001008203c061261000a110760000000000000001008201c02801c03d01c04601c04f01c05801c061,
  0x01e9000000a1ad080220d1ae5019cb2d29dab235359fe6250cddd84c83214deae65e7a1ab385d2050bf2020161036e696304776f726b0025d1c00a020162c02a25d1c20a020163c02a25d1c40a020178c02a9c9aac52020179c02a9c9aad5202017ac02a9c9aae5203c02820010dcd00010000000000000000001003c03920010dcd00020000000000000000001003c04220010dcd00030000000000000000001003c04b261000a110740000000000000001008203c054261000a110750000000000000001008203c05d261000a110760000000000000001008201c02801c03901c04201c04b01c05401c05d,
  0x01fc000000b6500802200339dd99b86b96b8e437908e9aea3eb578fad0de211bd8cf7a4fe6885e0acdd2020476306e30036e696305776f726b730041161806020476306e31c02d41161906020476306e32c02d41161a06020476306e33c02da1e80c06020476326e30c02d41161b06020476326e31c02da1e80d0603c0282a018840001a0000000000000000000603c03d2a018840001b0000000000000000000603c0492a018840001c0000000000000000000603c0552a01884000f60000000000000000000603c0612a018840001d0000000000000000000603c06d2a01884000f70000000000000000000601c02801c03d01c04901c05501c06101c06d,
  0x01fc000000331908022084c4ee9b8cec0c7eb9c2c892a07df5513897f91c5b3bc80410ebb062e86eac21020476306e30036e696305776f726c640041161801020476306e31c02d41161901020476306e32c02d41161a01020476306e33c02da1e80c01020476326e30c02d41161b01020476326e31c02da1e80d0103c0282a018840001a0000000000000000000103c03d2a018840001b0000000000000000000103c0492a018840001c0000000000000000000103c0552a01884000f60000000000000000000103c0612a018840001d0000000000000000000103c06d2a01884000f70000000000000000000101c02801c03d01c04901c05501c06101c06d,
  0x013e0100009a76080220168d62f4c47a24cd93f7ab8f58e366b5c225099b479d85366d61a43eeda9d4680204646e7331036e696303776f7700d5f8da570204646e7332c02d673152570204646e7333c02dd5f8de570204646e7334c02d2be632570204646e7361c02d9c9a64030204646e7362c02d9c9a65030204646e7363c02d9c9a66030204646e7364c02d9c9a670303c0282a01061804020000000000000000008703c03b2401fd8004020000000000000000008703c0472a01061804060000000000000000008703c0532401fd8004060000000000000000008703c05f20010502ad090000000000000000000303c06b200105022eda0000000000000000000303c077261000a110090000000000000000000303c083261000a110100000000000000000000301c02801c03b01c04701c05301c05f01c06b01c07701c083,
  0x01a30000008e660802207db7c8f0faed1ff118c3f081487cec39cec5c89fe647adc1e2d3643d1bc1f77d02016103646e7302777300c2926a92020173c02a4d48e5f802036e7332c02a4046135002036e7335c02a404613460203757333c02a40464e460203757334c02a40464e5003c0282001067c10100037000000000000005303c0372a0103f000000311000000000000005301c02801c03701c04001c04b01c05601c061,
  0x01aa000000ae0a080220b9a169f58e754770e8e23d48da8591a92f602f3d94862b33344c996c0590a6c4020161036e6963037774630025d1c009020162c02a25d1c209020163c02a25d1c409020164c02a25d1c60903c02820010dcd00010000000000000000000903c03820010dcd00020000000000000000000903c04120010dcd00030000000000000000000903c04a20010dcd00040000000000000000000901c02801c03801c04101c04a]
def data13 : List Nat := [
  0x01fa000000b965080220a9f9582d8b0f154f7051751b8c2ab121231ccb2ae36ea6da9536439855bf9f0f020476306e30036e6963037774660041161407020476306e31c02d41161507020476306e32c02d41161607020476306e33c02da1e80a07020476326e30c02d41161707020476326e31c02da1e80b0703c0282a01884000160000000000000000000703c03b2a01884000170000000000000000000703c0472a01884000180000000000000000000703c0532a01884000f40000000000000000000703c05f2a01884000190000000000000000000703c06b2a01884000f50000000000000000000701c02801c03b01c04701c05301c05f01c06b,
  0x01b4000000bca30802201189083bb85010770d8937e4bc2a2af6fc2c81f2eef8a53a7a2457709a53c3620203616331056e73746c6403636f6d00c02aad1e0203616332c02cc02aae1e0203616333c02cc02aaf1e0203616334c02cc02ab01e03c0282001050001200000000000000000003003c03c2001050001210000000000000000003003c0472001050001220000000000000000003003c0522001050001230000000000000000003001c02801c03c01c04701c052,
  0x01ea00000068ce0802207b5c562e138431a73348593e3a2d18c66deba2294f849c3b5ba62c7fb92443d3020161036e6963057865726f780025d1c009020162c02a25d1c209020163c02a25d1c409020178c02a9c9aac52020179c02a9c9aad5202017ac02a9c9aae5203c02820010dcd00010000000000000000000903c03a20010dcd00020000000000000000000903c04320010dcd00030000000000000000000903c04c261000a110740000000000000001008203c055261000a110750000000000000001008203c05e261000a110760000000000000001008201c02801c03a01c04301c04c01c05501c05e,
  0x0142010000a5d6080220c4d6cfeb973503edaa89943505206bf8c406fc92c80abad132318165aa1cb4450204646e7331036e6963077866696e69747900d5f8db070204646e7332c02d673153070204646e7333c02dd5f8df070204646e7334c02d2be633070204646e7361c02d9c9a64030204646e7362c02d9c9a65030204646e7363c02d9c9a66030204646e7364c02d9c9a670303c0282a01061804030000000000000000000703c03f2401fd8004030000000000000000000703c04b2a01061804070000000000000000000703c0572401fd8004070000000000000000000703c06320010502ad090000000000000000000303c06f200105022eda0000000000000000000303c07b261000a110090000000000000000000303c087261000a110100000000000000000000301c02801c03f01c04b01c05701c06301c06f01c07b01c087,
  0x019d0000006bad080220b77f15373b8af8e7ba2d8641701ae833416f8d439bbdaee71d18ce55efde790302036e73310874656c65696e666f02636e00673d3c0102036e73320974656c65696e666f6f03636f6d00673d3d0102036e7333c02c673d3e0102036e7334c042673d3f0103c02824027d8000000000000000000000000103c03e24027d8088880000000000000000000101c02801c03e01c05601c061,
  0x01ae0000000af90802203bbba82ef5ee5583f6743af83a583f203153df0c2066f8707a735dc514474bf402026130036e69630378696e004116801102026132c02b4116831102026230c02b4116811102026330c02b4116821103c0282a018840007e0000000000000000001703c0392a01884000810000000000000000001703c0432a018840007f0000000000000000001703c04d2a01884000800000000000000000001701c02801c03901c04301c04d,
  0x01b40000000f06080220a241c8ebf2c5cd49c2ddcef1b9e6f66a0cafb2a40c15b80b5ccec1bfb8ab9e9a0203616331056e73746c6403636f6d00c02aad1e0203616332c02cc02aae1e0203616333c02cc02aaf1e0203616334c02cc02ab01e03c0282001050001200000000000000000003003c03c2001050001210000000000000000003003c0472001050001220000000000000000003003c0522001050001230000000000000000003001c02801c03c01c04701c052,
  0x01fa000000affc08022095af6d712437ff0146056fb29421e23251ba928dd50401d6b48dad894b00b234020161036e69630b786e2d2d31636b326531620025d1c00a020162c02a25d1c20a020163c02a25d1c40a02036e733103646e73c02a9c9aa94002036e7332c0569c9aaa4002036e7333c0569c9aab4003c02820010dcd00010000000000000000001003c04020010dcd00020000000000000000001003c04920010dcd00030000000000000000001003c052261000a110710000000000000001004003c061261000a110720000000000000001004003c06c261000a110730000000000000001004001c02801c04001c04901c05201c06101c06c,
  0x01a900000009ca080220a379e36d05feafa4a5dab25f518b9f62df2fd2ba659bd8da1a3ea48e677da5f902027461056e67746c6402636e002a53820102027462c02b2a53830102027463c02b2a53840102027464c02b2a53850102027465c02b2a53860103c02820010dc7ffd10000000000000000000103c03a20010dc7ffd20000000000000000000103c04420010dc7ffd30000000000000000000101c02801c03a01c04401c04e01c058,
  0x01120100006730080114303b4e54353eb9e060383f6a6e2b76b78ebe44f80067300802202961c1313266c5dd552f28e9663cd4408fe058052bddd3993c000faaddb8a3a202036e733108726567697374727902696e0025d1c00c02036e7332c04625d1c20c02036e7333c04625d1c40c02036e7334c04625d1c60c02036e7335c0469c9a641402036e7336c0469c9a651403c04220010dcd00010000000000000000001203c05820010dcd00020000000000000000001203c06320010dcd00030000000000000000001203c06e20010dcd00040000000000000000001203c079200105022eda0000000000000000002003c08420010502ad090000000000000000002001c04201c05801c06301c06e01c07901c084,
  0x01ac000000a507080220339254f4939c992790a50b1d257ea5c50bf4fc30f9d7b55a0fe875885af8bb7a020161097a646e73636c6f756403636f6d00cb631801020162c02acb631901020163c02acb631a01020164c02acb631b01020166c02a724310cc020167c02a2a3e0210030169c02a24018d0000010000000000000000000103016ac02a24018d0000020000000000000000000101c02801c03e01c04701c05001c05901c06201c06b01c080,
  0x01ac0000002cd70802207881a662f41e0d4b2133e66229672677147a22a8eca1d1d02db93ecdb127d895020161097a646e73636c6f756403636f6d00cb631801020162c02acb631901020163c02acb631a01020164c02acb631b01020166c02a724310cc020167c02a2a3e0210030169c02a24018d0000010000000000000000000103016ac02a24018d0000020000000000000000000101c02801c03e01c04701c05001c05901c06201c06b01c080,
  0x019d0000006bad080220b0e469c6095b437074bfc7ebc7ab15ed6434662aab72c95d45e110d44233edb202036e73310874656c65696e666f02636e00673d3c0102036e73320974656c65696e666f6f03636f6d00673d3d0102036e7333c02c673d3e0102036e7334c042673d3f0103c02824027d8000000000000000000000000103c03e24027d8088880000000000000000000101c02801c03e01c05601c061,
  0x01c1000000bcfb08022088372b74adb821c79fac26e1883cc6bd96ff6eb97aaa1a9486bb4b3b26076d0202016203646e73026b7200d2653c01020163c02ad2653d01020164c02acb539f01020165c02aca1e7c64020166c02ad2653e01020167c02aca1fbe0103c04020010dcc00040000000000000000000103c04920010dcc00050000000000000000010003c05220010dcc00060000000000000000000103c05b20010dc5000a0000000000000000000101c02801c03701c04001c04901c05201c05b,
  0x011201000011e90801146350d9253c477744447b4c5228138a9becbba25d0011e9080220a82f292c5d91a677591cd83e15309d1641a16db06228c7c1ee2eb0095b810e6502036e733108726567697374727902696e0025d1c00c02036e7332c04625d1c20c02036e7333c04625d1c40c02036e7334c04625d1c60c02036e7335c0469c9a641402036e7336c0469c9a651403c04220010dcd00010000000000000000001203c05820010dcd00020000000000000000001203c06320010dcd00030000000000000000001203c06e20010dcd00040000000000000000001203c079200105022eda0000000000000000002003c08420010502ad090000000000000000002001c04201c05801c06301c06e01c07901c084,
  0x01b40000005cc10802200f23a019515245f10713b33d636e88d012821880ff05527c13def97575a8a11f0203616331056e73746c6403636f6d00c02aad1e0203616332c02cc02aae1e0203616333c02cc02aaf1e0203616334c02cc02ab01e03c0282001050001200000000000000000003003c03c2001050001210000000000000000003003c0472001050001220000000000000000003003c0522001050001230000000000000000003001c02801c03c01c04701c052,
  0x01b4000000c95d080220d9cb9d442c66759928ff2cefbf93fde4a4a45f0ca98e6c7d08ded196efcb33120203616331056e73746c6403636f6d00c02aad1e0203616332c02cc02aae1e0203616333c02cc02aaf1e0203616334c02cc02ab01e03c0282001050001200000000000000000003003c03c2001050001210000000000000000003003c0472001050001220000000000000000003003c0522001050001230000000000000000003001c02801c03c01c04701c052,
  0x01120100009f6a080114230063a8ea8c492b2ce4b872bc91a9185dfc207d009f6a0802201f8a630a6c2b9a503fd5293b3d523903b5b7e9563000d61b25eb94e8cdae9f6402036e733108726567697374727902696e0025d1c00c02036e7332c04625d1c20c02036e7333c04625d1c40c02036e7334c04625d1c60c02036e7335c0469c9a641402036e7336c0469c9a651403c04220010dcd00010000000000000000001203c05820010dcd00020000000000000000001203c06320010dcd00030000000000000000001203c06e20010dcd00040000000000000000001203c079200105022eda0000000000000000002003c08420010502ad090000000000000000002001c04201c05801c06301c06e01c07901c084,
  0x01120100000cdc080114edf28f38edeefedfe5f9ea0ea44e954b1ecacb59000cdc08022066b102691f6c2470699224ff587d2405975021588870f96a5355c2220dd55d8302036e733108726567697374727902696e0025d1c00c02036e7332c04625d1c20c02036e7333c04625d1c40c02036e7334c04625d1c60c02036e7335c0469c9a641402036e7336c0469c9a651403c04220010dcd00010000000000000000001203c05820010dcd00020000000000000000001203c06320010dcd00030000000000000000001203c06e20010dcd00040000000000000000001203c079200105022eda0000000000000000002003c08420010502ad090000000000000000002001c04201c05801c06301c06e01c07901c084,
  0x01ac000000b53f08022065907e5274d504536003bc4c24ac8d4907d0a7018996ffda5b7f46e8bd9825ba020161097a646e73636c6f756403636f6d00cb631801020162c02acb631901020163c02acb631a01020164c02acb631b01020166c02a724310cc020167c02a2a3e0210030169c02a24018d0000010000000000000000000103016ac02a24018d0000020000000000000000000101c02801c03e01c04701c05001c05901c06201c06b01c080,
  0x01fd000000fb9b0d022009f874ff34c6c2d73ccaa566b12c8cfb7e5de692405f57195c4562c9e2ba454802036e7331026e7302696c00c2926a7a02036e7333c02cc2000b6702036e7334c02ccc3dd88602036e7361c02cc073073502036e7362c02cc073073c02036e7365c02cc07304eb0204696c6e7304696c616e036e6574c02f808b230502066c6f6f6b75700469756363026163c02f808b22f003c0282001067c10100031000000000000005303c03820010678000e0103000000000000005303c043200105000014613400ad00000000000103c08420010bf80900000600000000808b22f001c02801c03801c04301c04e01c05901c06401c06f01c084,
  0x01d70000006209080220123b7c37a9dfd48ded1914c9172ee05865d10e47c0517f40659cb0305ba0d8b30095bc08022014e1f26f8b51f92bd671dbe97f651903fa1f26df07e2e882dd997a1d73971426020161036e69630a786e2d2d34676272696d00c2a9da90020162c050b9184090020163c050d412f890020164c050d412f99003c04e2001067c13cc0000000000000001014403c0652a042b0013cc0000000000000001014403c06e2a042b0013ee0000000000000000014403c0772a042b0013ff0000000000000000014401c04e01c06501c06e01c077,
  0x01880000020562642d6e7307616e796361737403706368036e657400cc3dd86c0207626179616e6e6f046274636c036e657402626400b4d3d4d50207656b7573686579c0267b31323303c002200105000014610800ad00000000000103c01e2407500000880002000000000000000303c0382407500000880001000000000000000201c00201c01e01c038,
  0x01ae000000bc62080220a16754c480e58c0d17126b3baf93f32bac39a916cf9d1f6f3a1f5c33687be80f02036e733105636f6e616302636e006feba10102036e7332c02c6feba20102036e7333c02c6feba30102036e7334c02c6feba40102036e7335c02c6feba50103c0282401b40000010000000000000000000103c03b2401b40000080000000000000000000103c0462401b40000090000000000000000000101c02801c03b01c04601c05101c05c,
  0x01a4000000b8ff080220d8fe897ce8ac620cb7cb9f6f4e887fc7a14c3ed80cb973da4e30a17ceca1015b020161056e67746c6402636e007dd02801020162c02a7dd02901020163c02a7dd02a01020164c02a7dd02b01020165c02a7dd02c0103c02820010dc7ffc10000000000000000000103c03920010dc7ffc20000000000000000000103c04220010dc7ffc30000000000000000000101c02801c03901c04201c04b01c054,
  0x01b400000095be0802208e0bc7de12a1b331b412ef896757471153d4fe1fb7e4edfa21bcbcf49d9d7fb10203616331056e73746c6403636f6d00c02aad1e0203616332c02cc02aae1e0203616333c02cc02aaf1e0203616334c02cc02ab01e03c0282001050001200000000000000000003003c03c2001050001210000000000000000003003c0472001050001220000000000000000003003c0522001050001230000000000000000003001c02801c03c01c04701c052,
  0x01b500000066f70802207d1e023bbb026ac5d19ae62d5f13ee6e01f3450a1e6629e25a9205dcf2a31f9e02026130036e69630a786e2d2d35747a6d3567004116100902026132c02b4116130902026230c02b4116110902026330c02b4116120903c0282a01884000120000000000000000000903c0402a01884000150000000000000000000903c04a2a01884000130000000000000000000903c0542a01884000140000000000000000000901c02801c04001c04a01c054,
  0x01b6000000c86e080220b725fa381426f5e3a9338c5c5a57447611aba619e9675d9bf973d1d2a3b14b5e02026130036e69630b786e2d2d3666727a383267004116180902026132c02b41161b0902026230c02b4116190902026330c02b41161a0903c0282a018840001a0000000000000000000903c0412a018840001d0000000000000000000903c04b2a018840001b0000000000000000000903c0552a018840001c0000000000000000000901c02801c04101c04b01c055,
  0x01ac00000076c6080220a9b0f70f49b9e0819d93e5e98d1a24499ed86dc201c15d77eaf1ecbbf7c6d2ae020161097a646e73636c6f756403636f6d00cb631801020162c02acb631901020163c02acb631a01020164c02acb631b01020166c02a724310cc020167c02a2a3e0210030169c02a24018d0000010000000000000000000103016ac02a24018d0000020000000000000000000101c02801c03e01c04701c05001c05901c06201c06b01c080,
  0x01e600000084700802207af8634483e30e963abfbf03f2efe17732ba3c4d2f5020777a415420048f5fcf02016103646e7308666c657869726567027275001fb1460102016203646e7308666c657869726567036e657400c3fd400602016303646e7308666c657869726567036f726700c3fd410602016403646e7308666c65786972656707646f6d61696e7300596f870103c0282a02209068000000000000000000000103c0402a0105b000040000000000000000000603c0592a0105b000050000000000000000000603c0722a0100d800080000000000000000000101c02801c04001c05901c072,
  0x0148000002026e73036e6963026b7a00c200150502036e7331c005b94fd40703c0022001067800980001000000000000000503c0122a01764090000000000000000000000701c00201c012,
  0x01f30000003f520802203ec3f92a011e4087d2c0fdf107a5ae34ca52ffa467bd73677128a91da3f552ef020161036e69630e786e2d2d383061716563647231610025d1c009020162c02a25d1c209020163c02a25d1c409020178c02a9c9aac52020179c02a9c9aad5202017ac02a9c9aae5203c02820010dcd00010000000000000000000903c04320010dcd00020000000000000000000903c04c20010dcd00030000000000000000000903c055261000a110740000000000000001008203c05e261000a110750000000000000001008203c067261000a110760000000000000001008201c02801c04301c04c01c05501c05e01c067,
  0x01cd000000d54e0a0220a1a13fcd0afb413657352eba09765c81e0ba0af0b8452f03eb0d0e4c9661241d0208616e7963617374390769726f6e646e73036e657400c3fd400b0209616e79636173743130c031c3fd400c0209616e79636173743233c031c3fd410b0209616e79636173743234c031c3fd410c03c0282a0105b000040000000000000000000b03c0432a0105b000040000000000000000000c03c0542a0105b000050000000000000000000b03c0652a0105b000050000000000000000000c01c02801c04301c05401c065,
  0x01cd000000ef610a0220fd5803e5d6ca1b8b5b3345b8e6aea0e640988d973ae153713a7bc890a84e34000208616e7963617374390769726f6e646e73036e657400c3fd400b0209616e79636173743130c031c3fd400c0209616e79636173743233c031c3fd410b0209616e79636173743234c031c3fd410c03c0282a0105b000040000000000000000000b03c0432a0105b000040000000000000000000c03c0542a0105b000050000000000000000000b03c0652a0105b000050000000000000000000c01c02801c04301c05401c065,
  0x01ac000000afc308022075ec90f39171d405cb5d609ab0c62f21b2c53da70d28d642d226121a4dc9a917020161097a646e73636c6f756403636f6d00cb631801020162c02acb631901020163c02acb631a01020164c02acb631b01020166c02a724310cc020167c02a2a3e0210030169c02a24018d0000010000000000000000000103016ac02a24018d0000020000000000000000000101c02801c03e01c04701c05001c05901c06201c06b01c080,
  0x01d4000000fba30d022017faf8dac1408c3f80631695363f4a3b0a15023842563af5faf8850e3e632973020161036e6963027273005bc7113b020162c02ac3b22002020166c02acc3dd820020167c02a935b0806020168c02a5bc7113c02016cc02ac2926a7203c0282001067c069c0000000000000000005903c0372a000e9000000003000000000000000303c040200105000014603200ad00000000000103c0522001067c069c0000000000000000006003c05b2001067c10100029000000000000005301c02801c03701c04001c04901c05201c05b,
  0x01e7000000d7560802200669c2eb01c870dae3ef098917da83562b431531334a531e9814f117557509d7020161036e696302626700c05c8163020162c02ac14403e8020163c02ac1446363020164c02ac2002001020165c02ab98f5001020170c02acc3dd86e03c0282a026a8000000000019200920129009903c0372a026a8000000000019300680003023203c0402a026a8000000000019300680099009903c04920010678003c0000000000000000000103c0522a026a80530e0000000000000000000103c05b200105000014611000ad00000000000101c02801c03701c04001c04901c05201c05b,
  0x01e2000000a95a0d0220e3288fd293924279d5c2cddaac9875052d0d3cac2476f03cfd546ea5127406990204646e733103746c64096265636c6f7564627903636f6d005d7d19480204646e7332c02d5d7d19490204646e7333c02db96253040204646e7334c02db848115e0204646e7335c02d36b423cb03c0282a00c827000a0002000000000000000203c0452a00c827000a0003000000000000000203c0512a01ba80000e000c000100000000004c03c05d26001f1c0e9d85008445614ff5829e8703c0692406da12083487003ff59f9df1cc863a01c02801c04501c05101c05d01c069,
  0x01b4000000b883080220014ae4831df78851e081e2f33857b1335bbf16a65e3fe624cb42d2ba1a32dae20203616331056e73746c6403636f6d00c02aad1e0203616332c02cc02aae1e0203616333c02cc02aaf1e0203616334c02cc02ab01e03c0282001050001200000000000000000003003c03c2001050001210000000000000000003003c0472001050001220000000000000000003003c0522001050001230000000000000000003001c02801c03c01c04701c052,
  0x01ac00000003010802202bae7ba36ea94541b8bc12188eb1aa933b5081cc281909cc5874af2ebeebae96020161097a646e73636c6f756403636f6d00cb631801020162c02acb631901020163c02acb631a01020164c02acb631b01020166c02a724310cc020167c02a2a3e0210030169c02a24018d0000010000000000000000000103016ac02a24018d0000020000000000000000000101c02801c03e01c04701c05001c05901c06201c06b01c080,
  0x01b600000017a4080220e5aea197b5fb7f042833684bbf64fd1f9341baa2007b2db2958c9dfaa5884b7802026130036e69630b786e2d2d396b7274303061004116700102026132c02b4116730102026230c02b4116710102026330c02b4116720103c0282a018840006e0000000000000000000103c0412a01884000710000000000000000000103c04b2a018840006f0000000000000000000103c0552a01884000700000000000000000000101c02801c04101c04b01c055,
  0x01b9000000dd53080220bd5e5982605e7ec6077b7742d7894a6959657afbfe9ee345eda682a9a4bf025202026130036e69630e786e2d2d623477363035666572640041168c0102026132c02b41168f0102026230c02b41168d0102026330c02b41168e0103c0282a018840008a0000000000000000000103c0442a018840008d0000000000000000000103c04e2a018840008b0000000000000000000103c0582a018840008c0000000000000000000101c02801c04401c04e01c058,
  0x0100010000466f080220f5936212e7d648f9906d69570e647f0a09c2c66bee3b322cf39e5307175996d3020161036e696311786e2d2d62636b316239613564726534630025d1c00a020162c02a25d1c20a020163c02a25d1c40a02036e733103646e73c02a9c9a90c202036e7332c05c9c9a91c202036e7333c05c9c9a9fc203c02820010dcd00010000000000000000001003c04620010dcd00020000000000000000001003c04f20010dcd00030000000000000000001003c058261000a11071000000000000000000c203c067261000a11072000000000000000000c203c072261000a11073000000000000000000c201c02801c04601c04f01c05801c06701c072,
  0x01b4000000409608022085d1ff435e850dcef97843fd4ceed2d36ceec9186ddcbc5fb3bd9ad440d7c39802026130036e696309786e2d2d6331617667004116b81902026132c02b4116bb1902026230c02b4116b91902026330c02b4116ba1903c0282a01884000b20000000000000000002503c03f2a01884000b50000000000000000002503c0492a01884000b30000000000000000002503c0532a01884000b40000000000000000002501c02801c03f01c04901c053,
  0x01b4000000a73a0802205bf46578d493a97436a5852abbea6cd186bd5786ad7d08387b7430228371ee330203616331056e73746c6403636f6d00c02aad1e0203616332c02cc02aae1e0203616333c02cc02aaf1e0203616334c02cc02ab01e03c0282001050001200000000000000000003003c03c2001050001210000000000000000003003c0472001050001220000000000000000003003c0522001050001230000000000000000003001c02801c03c01c04701c052,
  0x01fa000000d4f208022000a885297fe7934b3a92a271dccb88c79e37c8f1b18d15214e50e43e2386c63a020161036e69630b786e2d2d63636b326233620025d1c00a020162c02a25d1c20a020163c02a25d1c40a02036e733103646e73c02a9c9a90c102036e7332c0569c9a91c102036e7333c0569c9a9fc103c02820010dcd00010000000000000000001003c04020010dcd00020000000000000000001003c04920010dcd00030000000000000000001003c052261000a11071000000000000000000c103c061261000a11072000000000000000000c103c06c261000a11073000000000000000000c101c02801c04001c04901c05201c06101c06c,
  0x014801000008a4080220750ae447b9a971825d2818be9dbe88896f6fcd9148fba4cf481f4323dd2e96330204646e7331036e69630d786e2d2d63636b77637865746400d5f8da5c0204646e7332c02d6731525c0204646e7333c02dd5f8de5c0204646e7334c02d2be6325c0204646e7361c02d9c9a64030204646e7362c02d9c9a65030204646e7363c02d9c9a66030204646e7364c02d9c9a670303c0282a01061804020000000000000000009203c0452401fd8004020000000000000000009203c0512a01061804060000000000000000009203c05d2401fd8004060000000000000000009203c06920010502ad090000000000000000000303c075200105022eda0000000000000000000303c081261000a110090000000000000000000303c08d261000a110100000000000000000000301c02801c04501c05101c05d01c06901c07501c08101c08d,
  0x01c8000000e8ef0702207a16187809f4725a91f192336f6a9576f246df35edf500a1356b8c8dff2d59f102036e73310a786e2d2d636734626b690e63656e7472616c6e69632d646e7303636f6d00c2a9da7102036e7332c02cb918407102036e7333c02cd412f87102036e7334c02cd412f97103c0282001067c13cc0000000000000001011303c0502a042b0013cc0000000000000001011303c05b2a042b0013ee0000000000000000011303c0662a042b0013ff0000000000000000011301c02801c05001c05b01c066,
  0x01ed000000bc30080220c1c692e8bb1ecab17a80c5829445d6301787a275b6091a95754c4ac9681fb50e02036e73340561706e6963036e657400ca0c1f3502037063680773677a6f6e657302736700cc3dd83902056473616e790573676e6963c048781dfd0b02066473616e7932c057b99fc5aa02066473616e7933c057b99fc6aa03c02820010dd800120000000000000000005303c03c200105000014605700ad00000000000103c05120010dcd00070000000000000000001103c0642620010a80aa0000000000000000017003c0722620010a80ab0000000000000000017001c02801c03c01c05101c06401c072,
  0x01ac000000de520802205465baa574aa100721edded85284559d873f32fed96c02d0144b0281569ff37d020161097a646e73636c6f756403636f6d00cb631801020162c02acb631901020163c02acb631a01020164c02acb631b01020166c02a724310cc020167c02a2a3e0210030169c02a24018d0000010000000000000000000103016ac02a24018d0000020000000000000000000101c02801c03e01c04701c05001c05901c06201c06b01c080,
  0x010101000005aa080220ee874dd50ba3cecb8187c1d3fb2f8c72fae826a33c0c6a96dab7c16db8a70d84020476306e30036e69630a786e2d2d637a727330740041161c40020476306e31c02d41161d40020476306e32c02d41161e40020476306e33c02da1e80e40020476326e30c02d41161f40020476326e31c02da1e80f4003c0282a018840001e0000000000000000006403c0422a018840001f0000000000000000006403c04e2a01884000200000000000000000006403c05a2a01884000f80000000000000000006403c0662a01884000210000000000000000006403c0722a01884000f90000000000000000006401c02801c04201c04e01c05a01c06601c072,
  0x01ac00000003e3080220c37db96801455f34fc09b824107a81b4df13f273e00d1ef24b73986df0eda81c020161097a646e73636c6f756403636f6d00cb631801020162c02acb631901020163c02acb631a01020164c02acb631b01020166c02a724310cc020167c02a2a3e0210030169c02a24018d0000010000000000000000000103016ac02a24018d0000020000000000000000000101c02801c03e01c04701c05001c05901c06201c06b01c080,
  0x01ce0000007310080220c34bc7c01769d1bb146fe4007511dba6c49dde04ac27f52e47ed6ff95b8cb36e02016103646e73047269706e036e657400c1e88006020162c02ac255fc3e020164c02ac2be7c11020165c02ac1e88e11020166c02ac1e89c1103c0282001067800170000019302320128000603c03d2001067800160000019400850252006203c0462001067800180000019401900124001703c04f2001067800150000019302320142001703c0582001067800140000019302320156001701c02801c03d01c04601c04f01c058,
  0x019b000002016403657874036e696302637a00c11dce0202036e73320561726e657302736900c2f9042c0204746c6431066d61726e6574026d6b00c29589a80206646e732d6d6b06756e69766965026163026174004e68910403c0022001067800010000000000000000000203c0152001147080000053000000000000004403c03d20010628045300bb000000000000000401c00201c01501c02801c03d,
  0x01ca000000221b08022090045c6e0579687c19d9318132095adbc9532831f3d175004d8e4a05fb05d26802017703646e7302657500c200191c020178c02ab9978d01020179c02ac2926a5a02026265c02a9526011a02027369c02ac102dd3e03c0282001067800200000000000000000002803c0372a020568fe000000000000000000657503c0402001067c10100023000000000000005303c0492001097800020001000000000093000203c0532001147080000100000000000000006201c02801c03701c04001c04901c053,
  0x01fc000000a00c08022087ca2a9dfff26f0b71f1cfabf9dfa315eca77ccaf0168c5a39228ab8a5394d7f020161036e69630d786e2d2d65636b7664746339640025d1c00a020162c02a25d1c20a020163c02a25d1c40a02036e733103646e73c02a9c9aa94202036e7332c0589c9aaa4202036e7333c0589c9aab4203c02820010dcd00010000000000000000001003c04220010dcd00020000000000000000001003c04b20010dcd00030000000000000000001003c054261000a110710000000000000001004203c063261000a110720000000000000001004203c06e261000a110730000000000000001004201c02801c04201c04b01c05401c06301c06e,
  0x01ac000000413e0802203dc3633898aef4cf395e3b558dddb6b02111abc6bc31be55346bb44cb7778e74020161097a646e73636c6f756403636f6d00cb631801020162c02acb631901020163c02acb631a01020164c02acb631b01020166c02a724310cc020167c02a2a3e0210030169c02a24018d0000010000000000000000000103016ac02a24018d0000020000000000000000000101c02801c03e01c04701c05001c05901c06201c06b01c080,
  0x01fa000000a8400802200c2dfc5910ab7282c7c3201810c8a465c2ad7a6c6c4e26b5d8a2282f0387685d020161036e69630b786e2d2d6663743432396b0025d1c00a020162c02a25d1c20a020163c02a25d1c40a02036e733103646e73c02a9c9aa94302036e7332c0569c9aaa4302036e7333c0569c9aab4303c02820010dcd00010000000000000000001003c04020010dcd00020000000000000000001003c04920010dcd00030000000000000000001003c052261000a110710000000000000001004303c061261000a110720000000000000001004303c06c261000a110730000000000000001004301c02801c04001c04901c05201c06101c06c,
  0x01b400000023d30802208fa92257d3ab8e1be968bce6500cd79efc42d91f43226c7147f978e00c80944d0203616331056e73746c6403636f6d00c02aad1e0203616332c02cc02aae1e0203616333c02cc02aaf1e0203616334c02cc02ab01e03c0282001050001200000000000000000003003c03c2001050001210000000000000000003003c0472001050001220000000000000000003003c0522001050001230000000000000000003001c02801c03c01c04701c052,
  0x019d0000006bad080220646412b3004632fd45544ebec09e1a2f27e3dda2489814a170dfb2052ba1787c02036e73310874656c65696e666f02636e00673d3c0102036e73320974656c65696e666f6f03636f6d00673d3d0102036e7333c02c673d3e0102036e7334c042673d3f0103c02824027d8000000000000000000000000103c03e24027d8088880000000000000000000101c02801c03e01c05601c061,
  0x01ac00000097a80802202de6674a0eb17276f0e601cbd11a42a23fa04016329f0fa30a80df7c6a5625f2020161097a646e73636c6f756403636f6d00cb631801020162c02acb631901020163c02acb631a01020164c02acb631b01020166c02a724310cc020167c02a2a3e0210030169c02a24018d0000010000000000000000000103016ac02a24018d0000020000000000000000000101c02801c03e01c04701c05001c05901c06201c06b01c080,
  0x01a70000006e020802209e1e18c1aeb006ad617593ec2d2971e33bb22048316d1bb9f67ddd5eb00708c302016803646e7302636e007dd02001020169c02a7dd0210102016ac02a7dd0220102016bc02a7dd0230102016cc02a7dd0240102016dc02ac3db085b02016ec02a42c6b74203c02820010dc7fffe0000000000000000000103c03720010dc7ffff0000000000000000000101c02801c03701c04001c04901c05201c05b01c064,
  0x01a70000006e0208022030b55f108e07f9c2397f0d233324e02e667a137569ff91fc0311dcb73cea157102016803646e7302636e007dd02001020169c02a7dd0210102016ac02a7dd0220102016bc02a7dd0230102016cc02a7dd0240102016dc02ac3db085b02016ec02a42c6b74203c02820010dc7fffe0000000000000000000103c03720010dc7ffff0000000000000000000101c02801c03701c04001c04901c05201c05b01c064,
  0x0102010000f95b080220e3f265b8894b76bab24512c5276be9243c0afb4595a14c879f9fb711e754c013020476306e30036e69630b786e2d2d666a71373230610041161442020476306e31c02d41161542020476306e32c02d41161642020476306e33c02da1e80a42020476326e30c02d41161742020476326e31c02da1e80b4203c0282a01884000160000000000000000006603c0432a01884000170000000000000000006603c04f2a01884000180000000000000000006603c05b2a01884000f40000000000000000006603c0672a01884000190000000000000000006603c0732a01884000f50000000000000000006601c02801c04301c04f01c05b01c06701c073,
  0x01fa000000bf17080220aaacfe5efe147ef640dba9107a36f9e43bc2b3f736a538a680cd1c01aafe41fb02076e732d746c643116636861726c6573746f6e726f6164726567697374727903636f6d00d8ef206902076e732d746c6432c030d8ef226902076e732d746c6433c030d8ef246902076e732d746c6434c030d8ef266902076e732d746c6435c030d8ef3c6903c0282001486048020032000000000000006903c0512001486048020034000000000000006903c0602001486048020036000000000000006903c06f2001486048020038000000000000006903c07e2001486048050000000000000000006901c02801c05101c06001c06f01c07e,
  0x011201000010f3080114729776cccdfb22d121300d51b1feef73dbc38dc20010f3080220326247b6cbd9f13299e4420f8786a0b8bb31a197e5d94c8039fbaa42969ae41602036e733108726567697374727902696e0025d1c00c02036e7332c04625d1c20c02036e7333c04625d1c40c02036e7334c04625d1c60c02036e7335c0469c9a641402036e7336c0469c9a651403c04220010dcd00010000000000000000001203c05820010dcd00020000000000000000001203c06320010dcd00030000000000000000001203c06e20010dcd00040000000000000000001203c079200105022eda0000000000000000002003c08420010502ad090000000000000000002001c04201c05801c06301c06e01c07901c084,
  0x01af000002026c6b0c636f6d6d756e697479646e73036e657400c200011b02036e69630a6c6b2d616e796361737403706368c012cc3dd81b02036e7331026163026c6b00c0f801a202036e7333c03aca7ca6b202046e732d63036e6963c03dcb8f130302046e732d64c0567be7061202046e732d6cc056c0f8081102046e732d74c056cb5e428103c0362401dd0000010000000000000000016201c00201c01c01c03601c04601c05101c06101c06d01c079,
  0x01bb00000014b60802201d8b69a4fcfc475fb7d9d7b5b1366b92c51826a503a530f2ea1c6d07d58b9d2a02026130036e696310786e2d2d667a7973386436397576676d004116ac2102026132c02b4116af2102026230c02b4116ad2102026330c02b4116ae2103c0282a01884000a60000000000000000003303c0462a01884000a90000000000000000003303c0502a01884000a70000000000000000003303c05a2a01884000a80000000000000000003301c02801c04601c05001c05a,
  0x01fa000000c61f08022066adce3f11bc5ed44969987cf67a110272341cda053a5e1a03e92a24ac880902020161036e69630b786e2d2d673278783438630025d1c00a020162c02a25d1c20a020163c02a25d1c40a02036e733103646e73c02a9c9aa94402036e7332c0569c9aaa4402036e7333c0569c9aab4403c02820010dcd00010000000000000000001003c04020010dcd00020000000000000000001003c04920010dcd00030000000000000000001003c052261000a110710000000000000001004403c061261000a110720000000000000001004403c06c261000a110730000000000000001004401c02801c04001c04901c05201c06101c06c,
  0x01fb000000f88f080220c31c7f2466446141095814965f54b1c216ec7d588a47557faf927707ba09278c020161036e69630c786e2d2d67636b72336630660025d1c00a020162c02a25d1c20a020163c02a25d1c40a02036e733103646e73c02a9c9aa94502036e7332c0579c9aaa4502036e7333c0579c9aab4503c02820010dcd00010000000000000000001003c04120010dcd00020000000000000000001003c04a20010dcd00030000000000000000001003c053261000a110710000000000000001004503c062261000a110720000000000000001004503c06d261000a110730000000000000001004501c02801c04101c04a01c05301c06201c06d,
  0x0112010000d1800801141371f93b8ad0a3234b13ca8d9ad114f8135c459200d180080220f7130b2a6d09b86ebea29e617f832984921cf333a9a110a144a8be141d0adc4b02036e733108726567697374727902696e0025d1c00c02036e7332c04625d1c20c02036e7333c04625d1c40c02036e7334c04625d1c60c02036e7335c0469c9a641402036e7336c0469c9a651403c04220010dcd00010000000000000000001203c05820010dcd00020000000000000000001203c06320010dcd00030000000000000000001203c06e20010dcd00040000000000000000001203c079200105022eda0000000000000000002003c08420010502ad090000000000000000002001c04201c05801c06301c06e01c07901c084,
  0x01fa0000000ee6080220a8fae65de82950b05b5478b60d464fb9bf75810fd371e9d3a1869f0cae7735b2020161036e69630b786e2d2d676b33617431650025d1c00a020162c02a25d1c20a020163c02a25d1c40a02036e733103646e73c02a9c9aa94602036e7332c0569c9aaa4602036e7333c0569c9aab4603c02820010dcd00010000000000000000001003c04020010dcd00020000000000000000001003c04920010dcd00030000000000000000001003c052261000a110710000000000000001004603c061261000a110720000000000000001004603c06c261000a110730000000000000001004601c02801c04001c04901c05201c06101c06c,
  0x0112010000df36080114f1904299021bdd576b9f6b4f8c3f9a36e26f086a00df360802207914d7fac5cb670e5ebfa11201521d73849b6ddcc8a57d200fccb183f57ef2c302036e733108726567697374727902696e0025d1c00c02036e7332c04625d1c20c02036e7333c04625d1c40c02036e7334c04625d1c60c02036e7335c0469c9a641402036e7336c0469c9a651403c04220010dcd00010000000000000000001203c05820010dcd00020000000000000000001203c06320010dcd00030000000000000000001203c06e20010dcd00040000000000000000001203c079200105022eda0000000000000000002003c08420010502ad090000000000000000002001c04201c05801c06301c06e01c07901c084,
  0x01120100001984080114d37300e87a0d7e41af23d4df7a36fec1b8dd87640019840802203145cfbd5e9a48e7e26349fd06bb1e52e1a63f9558bbf84224739ac3284a0b2002036e733108726567697374727902696e0025d1c00c02036e7332c04625d1c20c02036e7333c04625d1c40c02036e7334c04625d1c60c02036e7335c0469c9a641402036e7336c0469c9a651403c04220010dcd00010000000000000000001203c05820010dcd00020000000000000000001203c06320010dcd00030000000000000000001203c06e20010dcd00040000000000000000001203c079200105022eda0000000000000000002003c08420010502ad090000000000000000002001c04201c05801c06301c06e01c07901c084,
  0x0112010000b62f0801141bc797bc281a9112ec87a5da4fefe9e85105303c00b62f080220dfa1ea5fba4f7d38a015098d58c88c22a9e781c366bb889c3d021ec314d0e82d02036e733108726567697374727902696e0025d1c00c02036e7332c04625d1c20c02036e7333c04625d1c40c02036e7334c04625d1c60c02036e7335c0469c9a641402036e7336c0469c9a651403c04220010dcd00010000000000000000001203c05820010dcd00020000000000000000001203c06320010dcd00030000000000000000001203c06e20010dcd00040000000000000000001203c079200105022eda0000000000000000002003c08420010502ad090000000000000000002001c04201c05801c06301c06e01c07901c084,
  0x01ac0000008cfb080220d5bc5cf399deadce2782f1d21051a13787822441ea5850f69189960974c9eb95020161097a646e73636c6f756403636f6d00cb631801020162c02acb631901020163c02acb631a01020164c02acb631b01020166c02a724310cc020167c02a2a3e0210030169c02a24018d0000010000000000000000000103016ac02a24018d0000020000000000000000000101c02801c03e01c04701c05001c05901c06201c06b01c080,
  0x01ba000000b3410802201ef7aca91f4ef292f518f1fcf77a646c21d7aa2594e3bd4af18906af7077460402026130036e69630f786e2d2d6931623662316136613265004116b80102026132c02b4116bb0102026230c02b4116b90102026330c02b4116ba0103c0282a01884000b20000000000000000000103c0452a01884000b50000000000000000000103c04f2a01884000b30000000000000000000103c0592a01884000b40000000000000000000101c02801c04501c04f01c059,
  0x01ac000000399b0802206581fd2fc61a9a81926e5dbe6f7eeb940402bf2db280c98f50aba666e4c74371020161097a646e73636c6f756403636f6d00cb631801020162c02acb631901020163c02acb631a01020164c02acb631b01020166c02a724310cc020167c02a2a3e0210030169c02a24018d0000010000000000000000000103016ac02a24018d0000020000000000000000000101c02801c03e01c04701c05001c05901c06201c06b01c080,
  0x01a4000000b8ff080220426db7d3fb8e6058be42d379ecd7742b2efab5dd0a7a95494d3518604b715b1e020161056e67746c6402636e007dd02801020162c02a7dd02901020163c02a7dd02a01020164c02a7dd02b01020165c02a7dd02c0103c02820010dc7ffc10000000000000000000103c03920010dc7ffc20000000000000000000103c04220010dc7ffc30000000000000000000101c02801c03901c04201c04b01c054,
  0x01b40000007ddc0802208cbaa94cf4c8387c6e98dcc53a90c9c7ce339029cf54d43e59e89b7d9c6f086c0203616331056e73746c6403636f6d00c02aad1e0203616332c02cc02aae1e0203616333c02cc02aaf1e0203616334c02cc02ab01e03c0282001050001200000000000000000003003c03c2001050001210000000000000000003003c0472001050001220000000000000000003003c0522001050001230000000000000000003001c02801c03c01c04701c052,
  0x01a100000203646e7303746369036e6574027561005be756ee0203756b72026e73c00ec23ac5040204646e73310a752d726567697374727903636f6d0033de80c50204646e73320a752d7265676973747279036e657400c37b01070204646e733306646f74756b72c03525bb4b1f02057469657231036e756dc00a95ca05e203c0172a0103f1c0010000000000000000005301c00201c01701c02501c03f01c05901c06c,
  0x012b010000cabd080220e6ca0901b162f725e226e514ec0fab47f90426a2effa779337efbb4965e56c3402016305686b697263036e657402686b00cb7702da020164c02acb7757da020174c02aca0c1f35020175c02ad2c98a3a020176c02acc3dd82e020178c02aca2dbc27020179c02a89bd061502017ac02ac2926a4603c02820010dca4000000000000000cb7702da03c03d20010dca2000000000000000cb7757da03c04620010dd800120000000000000000005303c04f2404000010a00000000000000000005803c058200105000014604600ad00000000000103c061240530010001003a000000000000002703c06a2405300000030006000000000000001503c0732001067c10100017000000000000005301c02801c03d01c04601c04f01c05801c06101c06a01c073,
  0x01490100007b530802203ccfc69c090a34ca30db066549363f433af1b5066fa8bd957f9116d5404d12c10204646e7331036e69630e786e2d2d6a6c713438306e32726700d5f8da5b0204646e7332c02d6731525b0204646e7333c02dd5f8de5b0204646e7334c02d2be6325b0204646e7361c02d9c9a64030204646e7362c02d9c9a65030204646e7363c02d9c9a66030204646e7364c02d9c9a670303c0282a01061804020000000000000000009103c0462401fd8004020000000000000000009103c0522a01061804060000000000000000009103c05e2401fd8004060000000000000000009103c06a20010502ad090000000000000000000303c076200105022eda0000000000000000000303c082261000a110090000000000000000000303c08e261000a110100000000000000000000301c02801c04601c05201c05e01c06a01c07601c08201c08e,
  0x01fa00000073d808022077feb7db568a4783b12ecb6decad2a0c7ef4c02e6ca448305380b2b4fff29867020161036e69630b786e2d2d6a76723138396d0025d1c00a020162c02a25d1c20a020163c02a25d1c40a02036e733103646e73c02a9c9aa94802036e7332c0569c9aaa4802036e7333c0569c9aab4803c02820010dcd00010000000000000000001003c04020010dcd00020000000000000000001003c04920010dcd00030000000000000000001003c052261000a110710000000000000001004803c061261000a110720000000000000001004803c06c261000a110730000000000000001004801c02801c04001c04901c05201c06101c06c,
  0x01f40000006262080220484679fbe2d01f386ac34d3e523f48e0a691c90df9eae97b80494f6afb645a05020161036e69630f786e2d2d6b637278373764317834610025d1c009020162c02a25d1c209020163c02a25d1c409020178c02a9c9aac52020179c02a9c9aad5202017ac02a9c9aae5203c02820010dcd00010000000000000000000903c04420010dcd00020000000000000000000903c04d20010dcd00030000000000000000000903c056261000a110740000000000000001008203c05f261000a110750000000000000001008203c068261000a110760000000000000001008201c02801c04401c04d01c05601c05f01c068,
  0x01e20000000e530802208ac78818cca7d2cd3a323bead03ccf68025ca932219014748692f12ed7a4b2ca02016403646e73027477003cc7a5ba020165c02ad314e70b020166c02aa31c010a020167c02adce5e1c3020168c02acc3dd8770206616e79746c640561706e6963036e657400ca0c1f3503c0282001454190100007000000000000018603c0372001b00001e0c000000000000000001103c04920010cd804000000000000000000019503c052200105000014611900ad00000000000103c05b20010dd800120000000000000000005301c02801c03701c04001c04901c05201c05b,
  0x01e20000003e1d080220119f2b2637aeb13da5c5d5b605ddcb9389a811a27d52102d9df28ee507c02da402016403646e73027477003cc7a5ba020165c02ad314e70b020166c02aa31c010a020167c02adce5e1c3020168c02acc3dd8770206616e79746c640561706e6963036e657400ca0c1f3503c0282001454190100007000000000000018603c0372001b00001e0c000000000000000001103c04920010cd804000000000000000000019503c052200105000014611900ad00000000000103c05b20010dd800120000000000000000005301c02801c03701c04001c04901c05201c05b,
  0x019d0000006bad080220a00d06ba7171102d9575f47af108b70ff9e24ce0d2ed3ad8f8923f14bb58f21702036e73310874656c65696e666f02636e00673d3c0102036e73320974656c65696e666f6f03636f6d00673d3d0102036e7333c02c673d3e0102036e7334c042673d3f0103c02824027d8000000000000000000000000103c03e24027d8088880000000000000000000101c02801c03e01c05601c061,
  0x0171000000b0380501141f4351261342fc31daa8d5e4f1d4fbf6ee0d985700b0380502201cbba9081b31b12fa98f5b7fee95751bd16676e41a2abc0b25bd0c003147449202036e73310369646e026d6e00da64541b02036e7332c046caaa502802036e7333c046b495624e01c04201c05301c05e,
  0x01250000020469646e31036e696302647a00c1c240f3020469646e32c007d5b3a04401c00201c014,
  0x01fe000002036e7331087265676973747279026f6d00b91b583202036e7332c006b91b593202056363746c64046265746106617269646e73036e65740261750025d1c20602056363746c6405616c706861c02e25d1c00602056363746c640564656c7461c02e25d1c60602056363746c640567616d6d61c02e25d1c40603c0022a00912000010000000000000000005003c0182a00912000020000000000000000005003c02320010dcd00020000000000000000000603c04220010dcd00010000000000000000000603c05520010dcd00040000000000000000000603c06820010dcd00030000000000000000000601c00201c01801c02301c04201c05501c068,
  0x0103010000ec5308022031728b6312e2eec4d09535252d0b46f6fdb80969882cd9e76d0320f3a2e3779802036e733103646e73036e69630e786e2d2d6d676261336133656a74009c9a900f02036e7332c02c9c9a910f02036e7333c02c9c9a9f0f02036e7334c02c9c9a9c0f02036e7335c02c9c9a9d0f02036e7336c02c9c9a9e0f03c028261000a110710000000000000000000f03c049261000a110720000000000000000000f03c054261000a110730000000000000000000f03c05f261000a110740000000000000000000f03c06a261000a110750000000000000000000f03c075261000a110760000000000000000000f01c02801c04901c05401c05f01c06a01c075,
  0x01260000020161036e696302697200c1bd7b0202026e730569726e6963c008c1bd7a5301c00201c011,
  0x01f50000000a66080220a083e4e9e6f8037d89de242fffe38e301bf73b7e3f132835b239b6d68258ea9f020161036e696310786e2d2d6d67626137633062626e30610025d1c009020162c02a25d1c209020163c02a25d1c409020178c02a9c9aac52020179c02a9c9aad5202017ac02a9c9aae5203c02820010dcd00010000000000000000000903c04520010dcd00020000000000000000000903c04e20010dcd00030000000000000000000903c057261000a110740000000000000001008203c060261000a110750000000000000001008203c069261000a110760000000000000001008201c02801c04501c04e01c05701c06001c069,
  0x01d000000007310801143abd4823cf90e3891acc13438db4953ab99f525500073108022091bb6ceffe38ddb9bd891a2a9d3cd1a86a6862f23f5e1bf5e9c77944bf47c030020161036e69630f786e2d2d6d676261616b633764766600c2a9da17020162c044b9184017020163c044d412f817020164c044d412f91703c0422001067c13cc0000000000000001002303c05e2a042b0013cc0000000000000001002303c0672a042b0013ee0000000000000000002303c0702a042b0013ff0000000000000000002301c04201c05e01c06701c070,
  0x0172000002036e7331056165646e73026165004f62784902036e7332c0064f62794902096e736578742d706368c006c704890103c0022a000d3001200000000000000000007303c0152a000d3001210000000000000000007303c02020010500007d0000000000000000000101c00201c01501c020,
  0x01cd000000baa20a02200ec09a1126f31b2c64c4cf2302ec87b2f12375485347bd4bfcbe93de7d33b7d20208616e7963617374390769726f6e646e73036e657400c3fd400b0209616e79636173743130c031c3fd400c0209616e79636173743233c031c3fd410b0209616e79636173743234c031c3fd410c03c0282a0105b000040000000000000000000b03c0432a0105b000040000000000000000000c03c0542a0105b000050000000000000000000b03c0652a0105b000050000000000000000000c01c02801c04301c05401c065,
  0x01c10000004a560802209c1324bbe5b1726510ca3ea47e2d42f7e6c6a09baf424ac344f32de5488ae5a902036e7331036e6963026d7200c19296c102036e7332c02c5297400202036e7333c02ccc3dd88702056e732d6d72036e696302667200c200090102056e732d6d7207616672696e6963036e657400c4d8a83503c044200105000014613500ad00000000000103c04f20010678000c0000000000000000000103c062200143f801200000000000000000005301c02801c03901c04401c04f01c062,
  0x017400000054d80701149fc6318aa15a43b4cf11d3f64cd678935e40402f0054d8070220bb7d853dfdfd7a39574ce1b5d3009e5c813264e614430c1b29c894c090393dd102026e73036e7463036e657402706b00ca53a4a602036e7331c045ca53a4a702036e7332c045af6bc69601c04201c05601c061,
  0x019c000002026a6f056363746c640761757468646e730472697065036e657400c100095302037269700370736703636f6d00931c00270204616d7261036e696303676f76026a6f00c1bc426702057065747261c039c1bc420202096a6f7264616e317374c039c1bc451303c0022001067c00e00000000000000000008303c0222001041800010000000000000000003901c00201c02201c03401c04a01c057]
def data14 : List Nat := [
  0x0112010000393a0801142a96453c73dd6997feae2daf8dae47ec0988f6c200393a080220c59a1d502e65a59ea0321233605adb83d858da81569cd730f8e59af62b4be61002036e733108726567697374727902696e0025d1c00c02036e7332c04625d1c20c02036e7333c04625d1c40c02036e7334c04625d1c60c02036e7335c0469c9a641402036e7336c0469c9a651403c04220010dcd00010000000000000000001203c05820010dcd00020000000000000000001203c06320010dcd00030000000000000000001203c06e20010dcd00040000000000000000001203c079200105022eda0000000000000000002003c08420010502ad090000000000000000002001c04201c05801c06301c06e01c07901c084,
  0x01120100000ef8080114b8cff8f1cb99b649bbc79ffed17ca87ce39acfe4000ef808022030aba4fd578a8b1dcaff2b2feb64bdfd308981dffeda63766f100f9ab10f9edc02036e733108726567697374727902696e0025d1c00c02036e7332c04625d1c20c02036e7333c04625d1c40c02036e7334c04625d1c60c02036e7335c0469c9a641402036e7336c0469c9a651403c04220010dcd00010000000000000000001203c05820010dcd00020000000000000000001203c06320010dcd00030000000000000000001203c06e20010dcd00040000000000000000001203c079200105022eda0000000000000000002003c08420010502ad090000000000000000002001c04201c05801c06301c06e01c07901c084,
  0x01e0000002016103746c64026d610051c0ab5302c00251c0ab83020162c00451c0ab5402c01851c0ab84020163c00451c0ab7302c02851c0ab8b020164c00451c0ab7402c03851c0ab8c020165c004694950ec020166c00429d6f00402056e732d6d61036e696302667200c200090103c0022001428818000186000000000000000303c0182001428818000186000000000000000403c0282001428818000386000000000000000303c0382001428818000386000000000000000403c05a20010678000c0000000000000000000101c00201c01801c02801c03801c04801c05101c05a,
  0x01ed0000000775080114d5a6f96664ae0d000a01b196c4348e7e231d95f8000775080220f62b4e977cba32cef37856a9f919ce405eb998f04d4abb309f1f9b86c105ca72020467746c64046265746106617269646e73036e65740261750025d1c20a020467746c6405616c706861c04c25d1c00a020467746c640564656c7461c04c25d1c60a020467746c640567616d6d61c04c25d1c40a03c04220010dcd00020000000000000000001003c06020010dcd00010000000000000000001003c07220010dcd00040000000000000000001003c08420010dcd00030000000000000000001001c04201c06001c07201c084,
  0x01b700000048a00802200decd54d82c1c675e321c38a49e3193f83066bd70d1bfb108b62231c75b8b407020161036e696310786e2d2d6d676263707136677061316100c2a9da73020162c02ab9184073020163c02ad412f873020164c02ad412f97303c0282001067c13cc0000000000000001011503c0452a042b0013cc0000000000000001011503c04e2a042b0013ee0000000000000000011503c0572a042b0013ff0000000000000000011501c02801c04501c04e01c057,
  0x015b01000088f9080220349fbddb7899686446d9e2b534cc5ffe33b5a73a84b93555d0e905710e284eb00202633103646e7302736100566fc00902026332c02b566fc40902026931c02bd48a767602026d31c02b56334dd502026d32c02b56331c2502026e31c02bc2926a6602027031c02bcc3dd82902027331c02b256bdfaa02027332c02b256bffaa0203736831c02bd5ec245c03c0282001067c18c800c000000000000000c103c0422001149000000800000000000000011803c04c2a020ce000010030000000000000000503c0562a020ce000010091000000000000000503c0602001067c10100026000000000000005303c06a200105000014604100ad00000000000103c074200116a000013002000000000000000203c07e200116a000023002000000000000000203c0882a020d7000640068000000000000000201c02801c03801c04201c04c01c05601c06001c06a01c07401c07e01c088,
  0x011201000096cd080114e4b5118f18bf6b0184e433e5878f89ceeb6ee3e00096cd0802207af2fffbd9aac1253b83673ad42ddb438d7dd35ff37da60f9ba0b7381de4c90702036e733108726567697374727902696e0025d1c00c02036e7332c04625d1c20c02036e7333c04625d1c40c02036e7334c04625d1c60c02036e7335c0469c9a641402036e7336c0469c9a651403c04220010dcd00010000000000000000001203c05820010dcd00020000000000000000001203c06320010dcd00030000000000000000001203c06e20010dcd00040000000000000000001203c079200105022eda0000000000000000002003c08420010502ad090000000000000000002001c04201c05801c06301c06e01c07901c084,
  0x01f300000087100802203d199736303984637fb5a1af60f2e5cf6d276f89d464039dba62c60f363f68c8020161036e69630e786e2d2d6d6762693465636578700025d1c009020162c02a25d1c209020163c02a25d1c409020178c02a9c9aac52020179c02a9c9aad5202017ac02a9c9aae5203c02820010dcd00010000000000000000000903c04320010dcd00020000000000000000000903c04c20010dcd00030000000000000000000903c055261000a110740000000000000001008203c05e261000a110750000000000000001008203c067261000a110760000000000000001008201c02801c04301c04c01c05501c05e01c067,
  0x0137000002037063680373697302736400cc3dd8610204616e7331c006c41da68603c002200105000014609700ad00000000000101c00201c013,
  0x01b40000002d2f0802207c846e4d86211c362cecbcc868123aee04f14232306937417f4e8b15148d0c43020161026e73036e69630c786e2d2d6d676274336468640048003109020162c02a482a710902036e73310a616e7963617374646e7302637a00b9266c6c02036e7332c051b91cc2c203c028262001710a0100ad000000000000000903c044262001710d0100dc000000000000000903c04d2a00fea0dead0000000000000000beef01c02801c04401c04d01c065,
  0x0182000002036e733103636d6302697100c2753964020464796e31c006c7130508020464796e32c006c7130608020b6e73702d616e7963617374c006c2753a2a03c0132001050000920000000000000000000803c01f2001050000960000000000000000000803c02b200105000014800100ad00000000004201c00201c01301c01f01c02b,
  0x013901000007ce080220de4c45d877c64e9c3ebcbc79badbc104d7c5292d72bc6ca47090b31be24212e0003d26080220e7e6d7d1bba6e0443ebe51946759fdcb9e370ba14f95b61091b9b989b1a903400093ea0802209818ec191cfce9ef77e5e458bcf471d5afcfa30d40f9a62bdd69a1863187247c020161036e6963026d7900672c6c35020161056d796e69630e63656e7472616c6e69632d646e7303636f6d00c2a9da72020162c085b9184072020163c085d412f872020164c085d412f97202026131c076caab2fcc03c07420010ddc00000053000000000000005303c0832001067c13cc0000000000000001011403c0a42a042b0013cc0000000000000001011403c0ad2a042b0013ee0000000000000000011403c0b62a042b0013ff0000000000000000011401c07401c08301c0a401c0ad01c0b601c0bf,
  0x01fa0000020161056d6f6e6963026d6f00caaf572f020162c004caaf5730020163c004caaf5731020164c004caaf3373020165c004caaf337402036e7332046375686b0365647502686b0089bd061502046e7331370463646e73036e657400c200011103c00220010f9000020008000000000000000203c01320010f9000020008000000000000000303c01c20010f9000020008000000000000000403c02520010f9000080000000000000000000203c02e20010f9000080000000000000000000303c0372405300000030006000000000000001503c04d2001067800040000000000000000001101c00201c01301c01c01c02501c02e01c03701c04d,
  0x01b4000000840c0802201a04e458d4f1c4054140270e1806289f0093aac5f3f20b1954526075988f91e70203616331056e73746c6403636f6d00c02aad1e0203616332c02cc02aae1e0203616333c02cc02aaf1e0203616334c02cc02ab01e03c0282001050001200000000000000000003003c03c2001050001210000000000000000003003c0472001050001220000000000000000003003c0522001050001230000000000000000003001c02801c03c01c04701c052,
  0x01b1000000feb008022024f4e4c9af4e4b45ec7ebeeb231c572496f89d13cf403df4fdcffc326333ca73020161036e69630a786e2d2d6d787471316d00caa9af82020162c02acb491819020163c02ad314e707020164c02a3cc7a5b903c02820010c0801750128000000000175012803c03f20010cd808000000000000000000002503c0482001b00001e0c000000000000000000703c0512001454190100007000000000000018501c02801c03f01c04801c051,
  0x01f1000000e2870802202cd63a89a2bd11a0d1f2a5aeaf04d5b07fb24f6ce9227fb2b5fc4c9d39c0ae20020161036e69630c786e2d2d6e67626335617a640025d1c003020162c02a25d1c203020163c02a25d1c403020178c02a9c9aac52020179c02a9c9aad5202017ac02a9c9aae5203c02820010dcd00010000000000000000000303c04120010dcd00020000000000000000000303c04a20010dcd00030000000000000000000303c053261000a110740000000000000001008203c05c261000a110750000000000000001008203c065261000a110760000000000000001008201c02801c04101c04a01c05301c05c01c065,
  0x01cd0000002938080114c5f1478252dc3d25e585a8d43ad460c0e8f86863002938080220b4b742442c6b66d321259fcd7608462a75f2a7ea70af4e42a6cad0430dd98d51020161036e69630c786e2d2d6e6762653965306100c2a9da16020162c044b9184016020163c044d412f816020164c044d412f91603c0422001067c13cc0000000000000001002203c05b2a042b0013cc0000000000000001002203c0642a042b0013ee0000000000000000002203c06d2a042b0013ff0000000000000000002201c04201c05b01c06401c06d,
  0x01ed00000090e808011471bd52e2a76beef79d624f5294c98588f940402c0090e8080220dd05b598b64707491e63a742d3e61edbb57091b5b93c8e0d65422595ad255ad4020467746c64046265746106617269646e73036e65740261750025d1c20a020467746c6405616c706861c04c25d1c00a020467746c640564656c7461c04c25d1c60a020467746c640567616d6d61c04c25d1c40a03c04220010dcd00020000000000000000001003c06020010dcd00010000000000000000001003c07220010dcd00040000000000000000001003c08420010dcd00030000000000000000001001c04201c06001c07201c084,
  0x01d9000002016108786e2d2d6e6f646512676c6f62616c616e7963617374636c6f756407667265656e6f6d036e657400b915a824020162c004b915a924020163c004b915aa24020164c004b915ab240208786e2d2d6e6f6465026e7307616e796361737403706368c028cc3dd85803c0022a041b0000080000000000000000000403c0322a041b0000090000000000000000000403c03b2a041b00000a0000000000000000000403c0442a041b00000b0000000000000000000403c04d200105000014608800ad00000000000101c00201c03201c03b01c04401c04d,
  0x01b400000057bb080220435a53c55e065976a2c03f1d8b09241a6ec3ea90d63d6cdaecd0ed93daf61e9902026130036e696309786e2d2d6e71763766004116b81102026132c02b4116bb1102026230c02b4116b91102026330c02b4116ba1103c0282a01884000b20000000000000000001703c03f2a01884000b50000000000000000001703c0492a01884000b30000000000000000001703c0532a01884000b40000000000000000001701c02801c03f01c04901c053,
  0x01ba00000070e10802206429b014e65ce5bd280e303e77c65ed29b9018fd717157b19871cd63994758f202026130036e69630f786e2d2d6e71763766733030656d61004116b80902026132c02b4116bb0902026230c02b4116b90902026330c02b4116ba0903c0282a01884000b20000000000000000000903c0452a01884000b50000000000000000000903c04f2a01884000b30000000000000000000903c0592a01884000b40000000000000000000901c02801c04501c04f01c059,
  0x011d0100006bad080220cb10ead52dc0ab87619f0add9400977114e8ae84fbcc3c3a3c84674bd1c3d7a000974e080114d1a95d7325518ac05264a89c41bcb06fcb34c4f100974e080220f0e7b5258ad4d9048d0562a0c7d5ae30dfd87967a515af0a256d3a8ba72acde300f1090801148d4ff5a86429fbdf7bdd44c05391b08a3594c09a00f10908022060a626b01624f7305e1e22c1b04da36c14bb501a3a6acb76b40af73af445221f02036e73310874656c65696e666f02636e00673d3c0102036e73320974656c65696e666f6f03636f6d00673d3d0102036e7333c0ac673d3e0102036e7334c0c2673d3f0103c0a824027d8000000000000000000000000103c0be24027d8088880000000000000000000101c0a801c0be01c0d601c0e1,
  0x01a600000069b508022053856679ac45ea6562ef4ecd2de7aea57d786870979f09c4bc1d5244c2e2a9c902016106746861696e7302636f027468007a9b1740020162c02acb9f4040020170c02acc3dd87e02026e730574686e6963036e657400ca1c000103c02820010c3820000183000000000000003003c03d24053340e0113000000000000000003003c046200105000014612600ad00000000000101c02801c03d01c04601c04f,
  0x0174000002027379056363746c640761757468646e730472697065036e657400c100097102036e733103746c64027379005289c855020370636807616e7963617374c026cc3dd84703c0022001067c00e00000000000000000011303c033200105000014607100ad00000000000101c00201c02201c033,
  0x01ac000000f1ba080220ef3f494c35f4c2c571a0e5644f6e2760818f2eb7b08e1b05b522d995022b6786020161097a646e73636c6f756403636f6d00cb631801020162c02acb631901020163c02acb631a01020164c02acb631b01020166c02a724310cc020167c02a2a3e0210030169c02a24018d0000010000000000000000000103016ac02a24018d0000020000000000000000000101c02801c03e01c04701c05001c05901c06201c06b01c080,
  0x01b20000002cb6080220c39b9fb91b155ca7ff3f84bc7f7b7713e8d3b40ae9b7b0d9c3de0fdc36fa325c02036e7331036e696309786e2d2d703161636600482a710202036e73310a616e7963617374646e7302637a00b9266c6c02036e7332c02c4800310202036e7332c044b91cc2c203c028262001710d0100dc000000000000000203c0402a00fea0dead0000000000000000beef03c058262001710a0100ad000000000000000201c02801c04001c05801c063,
  0x01ce000000f7e80802208382f17bdceade135acb65710afc608a5f5844a744b01fb17819d99e3020ac6502016103646e73047269706e036e657400c1e88006020162c02ac255fc3e020164c02ac2be7c11020165c02ac1e88e11020166c02ac1e89c1103c0282001067800170000019302320128000603c03d2001067800160000019400850252006203c0462001067800180000019401900124001703c04f2001067800150000019302320142001703c0582001067800140000019302320156001701c02801c03d01c04601c04f01c058,
  0x010d0100005b2d080220d7a6ed1fd619775c26ceb15a96586b3c1d7ac38574e44f1abc100ff2f50198a202036e73310361746902746e0029e43e3f02036e7332c02c29e43f3e02036e7332036e696302667200c05d00040203706368c02ccc3dd85e02037269700370736703636f6d00931c002702056e732d746e07616672696e6963036e657400c4d8a81903c0282c0ffab0ffff0004004102280062006303c0392c0ffab0ffff0005004102280063006203c0442001066030050001000000000001000203c055200105000014600400ad00000000000103c0602001041800010000000000000000003903c072200143f801200000000000000000002501c02801c03901c04401c05501c06001c072,
  0x01b40000009ac8080220c8aca8acbfaf0bbabf83ad3a480df9e961364d1bf326c953f1cf9597e844c95b0203616331056e73746c6403636f6d00c02aad1e0203616332c02cc02aae1e0203616333c02cc02aaf1e0203616334c02cc02ab01e03c0282001050001200000000000000000003003c03c2001050001210000000000000000003003c0472001050001220000000000000000003003c0522001050001230000000000000000003001c02801c03c01c04701c052,
  0x01c000000029d10702200abe3fc3e0d788cc7eda69271c7acb9ed5d23460d381b86253b44c57716a89e90201610a786e2d2d7137636536610e63656e7472616c6e69632d646e7303636f6d00c2a9da11020162c02ab9184011020163c02ad412f811020164c02ad412f91103c0282001067c13cc0000000000000001001703c04e2a042b0013cc0000000000000001001703c0572a042b0013ee0000000000000000001703c0602a042b0013ff0000000000000000001701c02801c04e01c05701c060,
  0x01fa00000027af0802202ec8c0789b0f4ddb281709a6b6d8ebe6259c0c30251f26f9759f29c6b93b7df302076e732d746c643116636861726c6573746f6e726f6164726567697374727903636f6d00d8ef206902076e732d746c6432c030d8ef226902076e732d746c6433c030d8ef246902076e732d746c6434c030d8ef266902076e732d746c6435c030d8ef3c6903c0282001486048020032000000000000006903c0512001486048020034000000000000006903c0602001486048020036000000000000006903c06f2001486048020038000000000000006903c07e2001486048050000000000000000006901c02801c05101c06001c06f01c07e,
  0x01fa000000feb00802204f705eef39238ef3192218a9bf4fa3789b1557cfc96e8eeb86583114c02abf5002076e732d746c643116636861726c6573746f6e726f6164726567697374727903636f6d00d8ef206902076e732d746c6432c030d8ef226902076e732d746c6433c030d8ef246902076e732d746c6434c030d8ef266902076e732d746c6435c030d8ef3c6903c0282001486048020032000000000000006903c0512001486048020034000000000000006903c0602001486048020036000000000000006903c06f2001486048020038000000000000006903c07e2001486048050000000000000000006901c02801c05101c06001c06f01c07e,
  0x01ca0000006fd0080220248cb7496d7d6c9a4c0f2bc97187e1ea7a4f9f1acefdc745680875e8a009b79302017703646e7302657500c200191c020178c02ab9978d01020179c02ac2926a5a02026265c02a9526011a02027369c02ac102dd3e03c0282001067800200000000000000000002803c0372a020568fe000000000000000000657503c0402001067c10100023000000000000005303c0492001097800020001000000000093000203c0532001147080000100000000000000006201c02801c03701c04001c04901c053,
  0x01ba000000289008022010a432dbf0112ce38a83ced26f36ce36aac7a3d37cec8d07583c01a5e9fd8ed1020467722d630369637305666f72746802677200c2000119020467722d64c02dc2000b6602056573746961c02d8b5bbf03020567722d6174c02d4e6891e302056772646e73c02d8b5b010103c0282001067800040000000000000000001903c04020010678000e0102000000000000005303c04c200106482c300000000000000191000301c02801c04001c04c01c05901c066,
  0x011d01000000a70801145a8ebbddfe4d0e442138737a5fc1d3e34ebae03f0000a708022034f9402ab776ffb050d28976320570acaab0afce393a589494c7cea61da3d53e0042c1080114122b5a9cccddd8fbca1164643630ff6d75d856da0042c10802200cab870792e42b0ef02ebcef64c3a4fe22d1be9ef91dd64004473741347a11f4006bad080220b53c43c6b3f1146cc9969545c292fae4823d43b81da05141646f837451e9237502036e73310874656c65696e666f02636e00673d3c0102036e73320974656c65696e666f6f03636f6d00673d3d0102036e7333c0ac673d3e0102036e7334c0c2673d3f0103c0a824027d8000000000000000000000000103c0be24027d8088880000000000000000000101c0a801c0be01c0d601c0e1,
  0x01fa00000013ff08022048bd313e429d3c9e64d4df6c2008efad55fe6d5ff0d1ee43cb991b2f4aee8207020161036e69630b786e2d2d726f76753838620025d1c00a020162c02a25d1c20a020163c02a25d1c40a02036e733103646e73c02a9c9aa94c02036e7332c0569c9aaa4c02036e7333c0569c9aab4c03c02820010dcd00010000000000000000001003c04020010dcd00020000000000000000001003c04920010dcd00030000000000000000001003c052261000a110710000000000000001004c03c061261000a110720000000000000001004c03c06c261000a110730000000000000001004c01c02801c04001c04901c05201c06101c06c,
  0x01120100007b9d08011439be358d26502941b8dc6d2db92412e2ba3bd61a007b9d08022030b6b047eb8493ab59fe6f29c8b2a44459f59878fd485bae4f2f3aa17b8705c502036e733108726567697374727902696e0025d1c00c02036e7332c04625d1c20c02036e7333c04625d1c40c02036e7334c04625d1c60c02036e7335c0469c9a641402036e7336c0469c9a651403c04220010dcd00010000000000000000001203c05820010dcd00020000000000000000001203c06320010dcd00030000000000000000001203c06e20010dcd00040000000000000000001203c079200105022eda0000000000000000002003c08420010502ad090000000000000000002001c04201c05801c06301c06e01c07901c084,
  0x0112010000739f080114ebd997ac14327528f6f3b868eb6e042ef66b155800739f0802204c80ac7573cca454cdb6f9bae10252394f9db65e07e1c37d74264b201fd41d7002036e733108726567697374727902696e0025d1c00c02036e7332c04625d1c20c02036e7333c04625d1c40c02036e7334c04625d1c60c02036e7335c0469c9a641402036e7336c0469c9a651403c04220010dcd00010000000000000000001203c05820010dcd00020000000000000000001203c06320010dcd00030000000000000000001203c06e20010dcd00040000000000000000001203c079200105022eda0000000000000000002003c08420010502ad090000000000000000002001c04201c05801c06301c06e01c07901c084,
  0x01ac000000dfb2080220a3c057a22744eb0ff0518d51e55b1271dab9d39391b55edc98443b22882b1c0c020161097a646e73636c6f756403636f6d00cb631801020162c02acb631901020163c02acb631a01020164c02acb631b01020166c02a724310cc020167c02a2a3e0210030169c02a24018d0000010000000000000000000103016ac02a24018d0000020000000000000000000101c02801c03e01c04701c05001c05901c06201c06b01c080,
  0x01b400000035d3080220680cf412999f4feff1c17c14299d412c149c118db24a9a5fc14c0c7b6a1263870203616331056e73746c6403636f6d00c02aad1e0203616332c02cc02aae1e0203616333c02cc02aaf1e0203616334c02cc02ab01e03c0282001050001200000000000000000003003c03c2001050001210000000000000000003003c0472001050001220000000000000000003003c0522001050001230000000000000000003001c02801c03c01c04701c052,
  0x01b40000008ac0080220131328bff91843a53643bf73535a6acb5ef32a916a23e0a7ab54794c2227f45d0203616331056e73746c6403636f6d00c02aad1e0203616332c02cc02aae1e0203616333c02cc02aaf1e0203616334c02cc02ab01e03c0282001050001200000000000000000003003c03c2001050001210000000000000000003003c0472001050001220000000000000000003003c0522001050001230000000000000000003001c02801c03c01c04701c052,
  0x01f20000000952080220ef5bb5c8dbc6edfbb51f26333f779dabb955fdbeb68f276027494846ec8ed9df020161036e69630d786e2d2d74697134397871796a0025d1c009020162c02a25d1c209020163c02a25d1c409020178c02a9c9aac52020179c02a9c9aad5202017ac02a9c9aae5203c02820010dcd00010000000000000000000903c04220010dcd00020000000000000000000903c04b20010dcd00030000000000000000000903c054261000a110740000000000000001008203c05d261000a110750000000000000001008203c066261000a110760000000000000001008201c02801c04201c04b01c05401c05d01c066,
  0x0101010000dff308022098698bf6004dcfe48f3c5beb164f75d63fbac726ae652da39af2929a8f836f92020476306e30036e69630a786e2d2d756e757034790041161422020476306e31c02d41161522020476306e32c02d41161622020476306e33c02da1e80a22020476326e30c02d41161722020476326e31c02da1e80b2203c0282a01884000160000000000000000003403c0422a01884000170000000000000000003403c04e2a01884000180000000000000000003403c05a2a01884000f40000000000000000003403c0662a01884000190000000000000000003403c0722a01884000f50000000000000000003401c02801c04201c04e01c05a01c06601c072,
  0x01e400000087290802207f669ea129f71b09eb87d520812d21758207ebdaae560cbb5019fbba4a20a01600eba0080220bd736c840d3b1b3fdd1679d500c5f5bd82cf0323e9706932bc5b2d847d5644b5020161036e696317786e2d2d7665726d67656e73626572617465722d63746200c2a9da69020162c050b9184069020163c050d412f869020164c050d412f96903c04e2001067c13cc0000000000000001010503c0722a042b0013cc0000000000000001010503c07b2a042b0013ee0000000000000000010503c0842a042b0013ff0000000000000000010501c04e01c07201c07b01c084,
  0x01e500000045ce0802204eee971c6228837580afa24873862426612e75b8c6f2b79ba370e5a6a0403b0800772d080220b1d9b6e7e50bd1ac597183b160050a398919dde4a33fac3714bccaedd4bfd2ef020161036e696318786e2d2d7665726d67656e736265726174756e672d70776200c2a9da6a020162c050b918406a020163c050d412f86a020164c050d412f96a03c04e2001067c13cc0000000000000001010603c0732a042b0013cc0000000000000001010603c07c2a042b0013ee0000000000000000010603c0852a042b0013ff0000000000000000010601c04e01c07301c07c01c085,
  0x0100010000620b08022097139be679993f9bc92729c06a1ce43ae75083580338cf750f15fd2b34737717020476306e30036e696309786e2d2d76687175760041161c1e020476306e31c02d41161d1e020476306e32c02d41161e1e020476306e33c02da1e80e1e020476326e30c02d41161f1e020476326e31c02da1e80f1e03c0282a018840001e0000000000000000003003c0412a018840001f0000000000000000003003c04d2a01884000200000000000000000003003c0592a01884000f80000000000000000003003c0652a01884000210000000000000000003003c0712a01884000f90000000000000000003001c02801c04101c04d01c05901c06501c071,
  0x019d0000001c2a080220eee275c0966a2dcd2bc5b996b6c8fa003e991d877d456c2530d4681e1eee0d5502036e73310874656c65696e666f02636e00673d3c0102036e73320974656c65696e666f6f03636f6d00673d3d0102036e7333c02c673d3e0102036e7334c042673d3f0103c02824027d8000000000000000000000000103c03e24027d8088880000000000000000000101c02801c03e01c05601c061,
  0x01b4000000038a0802207a3af4e169b87f77f5019e75a3bee359415cd06e9787bfeeb00247517dd0ec0e0203616331056e73746c6403636f6d00c02aad1e0203616332c02cc02aae1e0203616333c02cc02aaf1e0203616334c02cc02ab01e03c0282001050001200000000000000000003003c03c2001050001210000000000000000003003c0472001050001220000000000000000003003c0522001050001230000000000000000003001c02801c03c01c04701c052,
  0x01b4000000935d080220b8b0d86894f8635a37f163cf24737b3887b325594d58620764f04e99c1ec92870203616331056e73746c6403636f6d00c02aad1e0203616332c02cc02aae1e0203616333c02cc02aaf1e0203616334c02cc02ab01e03c0282001050001200000000000000000003003c03c2001050001210000000000000000003003c0472001050001220000000000000000003003c0522001050001230000000000000000003001c02801c03c01c04701c052,
  0x01750000004dc80801147ef77fe3d057844259326cda4f822d5287fa7769004dc80802207c0bf621527b8d576f7ab479bfccdd37464008db6ebe2128e802b0e17317f5fe02036e733107646f746d617372026567005115619b02036e7332c0465115630b02036e7333c046510a260b01c04201c05701c062,
  0x01c4000002016108726567697374727902716100b2171068020162c004b2171168020163c004d44dc00a020164c004d44dc00d020165c004b217143c020166c00425d1c006020167c00425d1c206020168c004b217163c020169c004cc3dd83e03c03a20010dcd00010000000000000000000603c04320010dcd00020000000000000000000603c04c2a0ca64000010022000000000000006003c055200105000014606200ad00000000000101c00201c01601c01f01c02801c03101c03a01c04301c04c01c055,
  0x01a900000009ca080220aab3b1cbc1b41da41348f9b7546b700ce2356d7627b9026fd616320f18b08fe802027461056e67746c6402636e002a53820102027462c02b2a53830102027463c02b2a53840102027464c02b2a53850102027465c02b2a53860103c02820010dc7ffd10000000000000000000103c03a20010dc7ffd20000000000000000000103c04420010dc7ffd30000000000000000000101c02801c03a01c04401c04e01c058,
  0x01af000002026c6b0c636f6d6d756e697479646e73036e657400c200011b02036e69630a6c6b2d616e796361737403706368c012cc3dd81b02036e7331026163026c6b00c0f801a202036e7333c03aca7ca6b202046e732d63036e6963c03dcb8f130302046e732d64c0567be7061202046e732d6cc056c0f8081102046e732d74c056cb5e428103c0362401dd0000010000000000000000016201c00201c01c01c03601c04601c05101c06101c06d01c079,
  0x011201000037f60801148f0b7485912c49c5278ecc27856b5e763c56001d0037f6080220f333a1c55eee388542ae349679bcab09c52b0a6b439b6051563e7734286a6d8202036e733108726567697374727902696e0025d1c00c02036e7332c04625d1c20c02036e7333c04625d1c40c02036e7334c04625d1c60c02036e7335c0469c9a641402036e7336c0469c9a651403c04220010dcd00010000000000000000001203c05820010dcd00020000000000000000001203c06320010dcd00030000000000000000001203c06e20010dcd00040000000000000000001203c079200105022eda0000000000000000002003c08420010502ad090000000000000000002001c04201c05801c06301c06e01c07901c084,
  0x01d0000000f5950d0220815a710ebacaf9227c48a8c96dd1199c7822bb3fc6ece2620975b2a5fa16a0fb0204666f726b0373746807646e736e6f6465036e6574004d48e5fe02066e732d63646e05616d6e6963c039c200011a02066e732d706368c04acc3dd86002066e732d707269036e696302616d00c32b4b3503c0282a0103f000000306000000000000005303c0432001067800040000000000000000001a03c057200105000014609600ad00000000000103c065200107f900080053000000000000000101c02801c04301c05701c065,
  0x01ed000000cd510802208c1b2380f8ef57daa14b40ab3f447a62838ca148d2d778e048aee2d6ff37475502036e73340561706e6963036e657400ca0c1f3502037063680773677a6f6e657302736700cc3dd83902056473616e790573676e6963c048781dfd0b02066473616e7932c057b99fc5aa02066473616e7933c057b99fc6aa03c02820010dd800120000000000000000005303c03c200105000014605700ad00000000000103c05120010dcd00070000000000000000001103c0642620010a80aa0000000000000000017003c0722620010a80ab0000000000000000017001c02801c03c01c05101c06401c072,
  0x01470000020369646e05706e696e6102707300d040440402036e7331c006c206e1140204646e733103676f76c00cd5f452930204646e7333c025d40efdf201c00201c01501c02001c030,
  0x01ae000000c8dd0802209d673623e84d7e10b2aa5b376a3f617665f8b38ef442e8a7e86f0f18161c780102036e733105636f6e616302636e006feba10102036e7332c02c6feba20102036e7333c02c6feba30102036e7334c02c6feba40102036e7335c02c6feba50103c0282401b40000010000000000000000000103c03b2401b40000080000000000000000000103c0462401b40000090000000000000000000101c02801c03b01c04601c05101c05c,
  0x01e8000000122e0802200a2255017ab65ca9d9a3d1a1d74da6f19e9c4dad8b7b452e547d2420f9e74c39020161036e6963037878780025d1c00a020162c02a25d1c20a020163c02a25d1c40a020178c02a9c9aac52020179c02a9c9aad5202017ac02a9c9aae5203c02820010dcd00010000000000000000001003c03820010dcd00020000000000000000001003c04120010dcd00030000000000000000001003c04a261000a110740000000000000001008203c053261000a110750000000000000001008203c05c261000a110760000000000000001008201c02801c03801c04101c04a01c05301c05c,
  0x01d00000000e0f0801143fa3b264f45db5f38bedeaf1a88b76aa318c2c7f000e0f080220b9733869bc84c86bb59d102ba5da6b27b2088552332a39dcd54bc4e8d66b0499020178036e69630378797a00c2a9da2a020179c044b918402a02017ac044d412f82a020d67656e65726174696f6e78797ac044d412f92a03c0422001067c13cc0000000000000001004203c0522a042b0013cc0000000000000001004203c05b2a042b0013ee0000000000000000004203c0642a042b0013ff0000000000000000004201c04201c05201c05b01c064,
  0x01d3000000388d0802200180abc62cf090f5df1ef074f1958c237261e14633f4ad949298514bda15525700c397080220bf1b2d1657ad8be12fbedad8af0999d1e9185c100937ac023d01c9a6cca78dae020161036e69630679616368747300c2a9da85020162c050b9184085020163c050d412f885020164c050d412f98503c04e2001067c13cc0000000000000001013303c0612a042b0013cc0000000000000001013303c06a2a042b0013ee0000000000000000013303c0732a042b0013ff0000000000000000013301c04e01c06101c06a01c073,
  0x01b4000000cc2408022099da5ed59ca94fc8c28c5c7a4a817e7fc0c52688b115dcf743fb914be65ba4470203616331056e73746c6403636f6d00c02aad1e0203616332c02cc02aae1e0203616333c02cc02aaf1e0203616334c02cc02ab01e03c0282001050001200000000000000000003003c03c2001050001210000000000000000003003c0472001050001220000000000000000003003c0522001050001230000000000000000003001c02801c03c01c04701c052,
  0x014201000060c7080220fd24cfe326a910cbb3f11cddc381abc7e296bd29e75dac6de13b4b5dbb130ea70204646e7331036e69630779616d6178756e00d5f8da580204646e7332c02d673152580204646e7333c02dd5f8de580204646e7334c02d2be632580204646e7361c02d9c9a64030204646e7362c02d9c9a65030204646e7363c02d9c9a66030204646e7364c02d9c9a670303c0282a01061804020000000000000000008803c03f2401fd8004020000000000000000008803c04b2a01061804060000000000000000008803c0572401fd8004060000000000000000008803c06320010502ad090000000000000000000303c06f200105022eda0000000000000000000303c07b261000a110090000000000000000000303c087261000a110100000000000000000000301c02801c03f01c04b01c05701c06301c06f01c07b01c087,
  0x01b7000000c4940d02203f25b6eaf2b08861672673779cb294ce5154337b250da78fb9ed949a997c38df02036e73310b756e697265676973747279036e6574004060010102036e73320b756e69726567697374727904696e666f004060020102036e7333c02cb99fc50302036e7334c046b99fc60303c0282620005740000001000000000000000103c05d2620010a80aa0000000000000000000303c0682620010a80ab0000000000000000000301c02801c04201c05d01c068,
  0x0193000002036e73310579656d656e036e65740279650041a2b82102036e7332c00641a2b822020473616831c010c35e0022020473616832c010c35e002303c0022a02271800040000000000000000003303c0192a02271800040000000000000000003403c0242a02e2800008d000000000000000003403c0302a02e2800008d000000000000000003501c00201c01901c02401c030,
  0x019f0000009dc3080220f2a6e4458136145067fca10141180bac9fd4ca768908707d98e5e2412039a1e30201610b676d6f7265676973747279036e65740025d1c004020162c02a25d1c20402016bc02a25d1c40402016cc02a25d1c60403c02820010dcd00010000000000000000000403c04020010dcd00020000000000000000000403c05220010dcd00040000000000000000000401c02801c04001c04901c052,
  0x01e90000004b9d080220fb9b29f651414b178b56b756e96a6a8660d67616ecacc53b6124bebe13b0d3ae020161036e696304796f67610025d1c00a020162c02a25d1c20a020163c02a25d1c40a020178c02a9c9aac52020179c02a9c9aad5202017ac02a9c9aae5203c02820010dcd00010000000000000000001003c03920010dcd00020000000000000000001003c04220010dcd00030000000000000000001003c04b261000a110740000000000000001008203c054261000a110750000000000000001008203c05d261000a110760000000000000001008201c02801c03901c04201c04b01c05401c05d,
  0x019f0000009f32080220e03e2af9c07c1acde150dc51e5a2d8803f70626fb5b6deecdabc5f8fdd0bdbaa0201610b676d6f7265676973747279036e65740025d1c004020162c02a25d1c20402016bc02a25d1c40402016cc02a25d1c60403c02820010dcd00010000000000000000000403c04020010dcd00020000000000000000000403c05220010dcd00040000000000000000000401c02801c04001c04901c052,
  0x013e010000a2b80802204d7022047e13ae416d1e12ac44c5eb5ab58c4bf1e4e86dd47c9dd62106a0e3480204646e7331036e696303796f7500d5f8da590204646e7332c02d673152590204646e7333c02dd5f8de590204646e7334c02d2be632590204646e7361c02d9c9a64030204646e7362c02d9c9a65030204646e7363c02d9c9a66030204646e7364c02d9c9a670303c0282a01061804020000000000000000008903c03b2401fd8004020000000000000000008903c0472a01061804060000000000000000008903c0532401fd8004060000000000000000008903c05f20010502ad090000000000000000000303c06b200105022eda0000000000000000000303c077261000a110090000000000000000000303c083261000a110100000000000000000000301c02801c03b01c04701c05301c05f01c06b01c07701c083,
  0x01fa000000f943080220704005247382f846eac39d9654488f071934fdf3e96c05be3266009593f6061702076e732d746c643116636861726c6573746f6e726f6164726567697374727903636f6d00d8ef206902076e732d746c6432c030d8ef226902076e732d746c6433c030d8ef246902076e732d746c6434c030d8ef266902076e732d746c6435c030d8ef3c6903c0282001486048020032000000000000006903c0512001486048020034000000000000006903c0602001486048020036000000000000006903c06f2001486048020038000000000000006903c07e2001486048050000000000000000006901c02801c05101c06001c06f01c07e,
  0x01ad000000e32c0d0220712dd1bbc29e719caf3b34e9a0bee2d443df1ed9d2d6e09b97baa828d5ff3dc7020164036e696302667200c200090102016503657874c02ac1b09016020166c039c2926a2e020167c039c200240103c02820010678000c0000000000000000000103c0372a000d7800000102019301760144002203c0442001067c10100011000000000000005303c04d20010678004c0000000000000000000101c02801c03701c04401c04d,
  0x019d0000006bad080220d8b3c3d5ee497216f3920a87706f270101f63803903de581669754ac772baa8502036e73310874656c65696e666f02636e00673d3c0102036e73320974656c65696e666f6f03636f6d00673d3d0102036e7333c02c673d3e0102036e7334c042673d3f0103c02824027d8000000000000000000000000103c03e24027d8088880000000000000000000101c02801c03e01c05601c061,
  0x0199000000b2b50802203e2b0b7e6063ca11400fa4b54d8a530888234cd0eb3b5fbf820c0750784da84e02037a613107646e736e6f6465036e657400c2926a4e02046e737a6102697302636f027a6100c404a01b02057a612d6e7307616e796361737403706368c034cc3dd83703c0282001067c10100019000000000000005303c052200105000014605500ad00000000000101c02801c03e01c052,
  0x01410100008da9080220a8426c392c1c10535d73c70c91860ab821ce7ccfbec9567ed6c015c0c3541ca70204646e7331036e6963067a6170706f7300d5f8da340204646e7332c02d673152340204646e7333c02dd5f8de340204646e7334c02d2be632340204646e7361c02d9c9a64030204646e7362c02d9c9a65030204646e7363c02d9c9a66030204646e7364c02d9c9a670303c0282a01061804020000000000000000005203c03e2401fd8004020000000000000000005203c04a2a01061804060000000000000000005203c0562401fd8004060000000000000000005203c06220010502ad090000000000000000000303c06e200105022eda0000000000000000000303c07a261000a110090000000000000000000303c086261000a110100000000000000000000301c02801c03e01c04a01c05601c06201c06e01c07a01c086,
  0x01af0000009cd30802202e4669652e0c3b84007e43707f8354c94afd6f929a5152524bedbaa6f009dafa02026130036e6963047a617261004116e82102026132c02b4116eb2102026230c02b4116e92102026330c02b4116ea2103c0282a01884000e20000000000000000003303c03a2a01884000e50000000000000000003303c0442a01884000e30000000000000000003303c04e2a01884000e40000000000000000003301c02801c03a01c04401c04e,
  0x01f3000000bb66080220331d019e413914c99d9ae0e89862063a248694e12c4d40764eaa91b109c3e4e8020161036e6963047a65726f0025d1c00a020162c02a25d1c20a020163c02a25d1c40a02036e733103646e73c02a9c9a90bc02036e7332c04f9c9a91bc02036e7333c04f9c9a9fbc03c02820010dcd00010000000000000000001003c03920010dcd00020000000000000000001003c04220010dcd00030000000000000000001003c04b261000a11071000000000000000000bc03c05a261000a11072000000000000000000bc03c065261000a11073000000000000000000bc01c02801c03901c04201c04b01c05a01c065,
  0x01fa000000929508022032eb9249d844b8593cf81fa5e2cec76cfcc536c249e116ea9b49269ac8f239ce02076e732d746c643116636861726c6573746f6e726f6164726567697374727903636f6d00d8ef206902076e732d746c6432c030d8ef226902076e732d746c6433c030d8ef246902076e732d746c6434c030d8ef266902076e732d746c6435c030d8ef3c6903c0282001486048020032000000000000006903c0512001486048020034000000000000006903c0602001486048020036000000000000006903c06f2001486048020038000000000000006903c07e2001486048050000000000000000006901c02801c05101c06001c06f01c07e,
  0x014000000203706368036e6963027a6d00cc3dd84902066772616e7379c006b91cc2c202c013b9266c6c03c002200105000014607300ad00000000000101c00201c013,
  0x01fb0000002f6808022044853e072aa0c590351b822b9a23ff95631412a3583228163a995598ef764baf020476306e30036e6963047a6f6e650041161c05020476306e31c02d41161d05020476306e32c02d41161e05020476306e33c02da1e80e05020476326e30c02d41161f05020476326e31c02da1e80f0503c0282a018840001e0000000000000000000503c03c2a018840001f0000000000000000000503c0482a01884000200000000000000000000503c0542a01884000f80000000000000000000503c0602a01884000210000000000000000000503c06c2a01884000f90000000000000000000501c02801c03c01c04801c05401c06001c06c,
  0x01d40000001ce708022069407fe45988e2c569855c70330a24520db734481082c668317e8bbb764551d300cc97080220e3ebd91bbf29be88d075c43ac313a9db174267e858061316ec4c942728a3829e020161036e6963077a75657269636800c2a9da6b020162c050b918406b020163c050d412f86b020164c050d412f96b03c04e2001067c13cc0000000000000001010703c0622a042b0013cc0000000000000001010703c06b2a042b0013ee0000000000000000010703c0742a042b0013ff0000000000000000010701c04e01c06201c06b01c074,
  0x01d7000002036e73310d6c697175696474656c65636f6d036e657400050b0b0102036e7332c006050b0b0a02057a772d6e7307616e796361737403706368c014cc3dd88002066e73317a696d0674656c6f6e6502636f027a770029dc1e5102066e73327a696dc04929dc1e5203c0022c0ffe4000000000000500110011000103c01e2c0ffe4000000000000500110011001003c029200105000014612800ad00000000000103c0422c0ff7580000000a000000000000008103c05c2c0ff7580000000a000000000000008201c00201c01e01c02901c04201c05c]

/-- HSK_TLD_DATA (src/tld.h:1493-26999) without the final NULL and the NUL that ends each literal. -/
def data : List Nat :=
  data0 ++ data1 ++ data2 ++ data3 ++ data4 ++ data5 ++ data6 ++ data7 ++ data8 ++ data9 ++ data10 ++ data11 ++ data12 ++ data13 ++ data14

end Verif.Tld
