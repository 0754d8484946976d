import Verif.Model.TimeZone

/-! Transition tables of the zones named by the `tz` attributes of the calendars, written by
`tools/gen_zones.py` from the tz database (release 2026a) as pytz reads it: offsets rounded to
minutes, transitions from 1901 to 2037.  Times are seconds. -/

namespace TC

/-- The zone with the given offset before the first transition and the given transitions, all in
seconds, as `pytz.tzfile.build_tzinfo` builds it (for the `tz` of the calendar classes, e.g. `exchange_calendar_xnys.py`
line 162). -/
def Tz.ofSeconds (base : Int) (trans : List (Int × Int)) : Tz :=
  { base := base * 1000000000
    trans := trans.map fun e => (e.1 * 1000000000, e.2 * 1000000000) }

/-- `timezone('Africa/Johannesburg')` (`exchange_calendar_xjse.py` line 61). -/
def Zones.africaJohannesburg : Tz := .ofSeconds (6720)
  ((-2147483648, 5400) :: (-2109288600, 7200) :: (-860976000, 10800) :: (-845254800, 7200) ::
   (-829526400, 10800) :: (-813805200, 7200) :: [])

/-- `timezone('America/Argentina/Buenos_Aires')` (`exchange_calendar_xbue.py` line 261). -/
def Zones.americaArgentinaBuenosAires : Tz := .ofSeconds (-14040)
  ((-2147483648, -15420) :: (-1567453392, -14400) :: (-1233432000, -10800) ::
   (-1222981200, -14400) :: (-1205956800, -10800) :: (-1194037200, -14400) ::
   (-1172865600, -10800) :: (-1162501200, -14400) :: (-1141329600, -10800) ::
   (-1130965200, -14400) :: (-1109793600, -10800) :: (-1099429200, -14400) ::
   (-1078257600, -10800) :: (-1067806800, -14400) :: (-1046635200, -10800) ::
   (-1036270800, -14400) :: (-1015099200, -10800) :: (-1004734800, -14400) ::
   (-983563200, -10800) :: (-973198800, -14400) :: (-952027200, -10800) ::
   (-941576400, -14400) :: (-931032000, -10800) :: (-900882000, -14400) ::
   (-890337600, -10800) :: (-833749200, -14400) :: (-827265600, -10800) ::
   (-752274000, -14400) :: (-733780800, -10800) :: (-197326800, -14400) ::
   (-190843200, -10800) :: (-184194000, -14400) :: (-164491200, -10800) ::
   (-152658000, -14400) :: (-132955200, -10800) :: (-121122000, -14400) ::
   (-101419200, -10800) :: (-86821200, -14400) :: (-71092800, -10800) :: (-54766800, -14400) ::
   (-39038400, -10800) :: (-23317200, -14400) :: (-7588800, -10800) :: (128142000, -7200) ::
   (136605600, -10800) :: (596948400, -7200) :: (605066400, -10800) :: (624423600, -7200) ::
   (636516000, -10800) :: (656478000, -7200) :: (667965600, -10800) :: (687927600, -7200) ::
   (699415200, -10800) :: (719377200, -7200) :: (731469600, -10800) :: (938919600, -10800) ::
   (952052400, -10800) :: (1198983600, -7200) :: (1205632800, -10800) :: (1224385200, -7200) ::
   (1237082400, -10800) :: (2147483647, -10800) :: [])

/-- `timezone('America/Chicago')` (`exchange_calendar_cmes.py` line 57, `exchange_calendar_xcbf.py` line 70). -/
def Zones.americaChicago : Tz := .ofSeconds (-21060)
  ((-2147483648, -21600) :: (-1633276800, -18000) :: (-1615136400, -21600) ::
   (-1601827200, -18000) :: (-1583686800, -21600) :: (-1563724800, -18000) ::
   (-1551632400, -21600) :: (-1538928000, -18000) :: (-1520182800, -21600) ::
   (-1504454400, -18000) :: (-1491757200, -21600) :: (-1473004800, -18000) ::
   (-1459702800, -21600) :: (-1441555200, -18000) :: (-1428253200, -21600) ::
   (-1410105600, -18000) :: (-1396803600, -21600) :: (-1378656000, -18000) ::
   (-1365354000, -21600) :: (-1347206400, -18000) :: (-1333904400, -21600) ::
   (-1315152000, -18000) :: (-1301850000, -21600) :: (-1283702400, -18000) ::
   (-1270400400, -21600) :: (-1252252800, -18000) :: (-1238950800, -21600) ::
   (-1220803200, -18000) :: (-1207501200, -21600) :: (-1189353600, -18000) ::
   (-1176051600, -21600) :: (-1157299200, -18000) :: (-1144602000, -21600) ::
   (-1125849600, -18000) :: (-1112547600, -21600) :: (-1094400000, -18000) ::
   (-1081098000, -21600) :: (-1067788800, -18000) :: (-1045414800, -21600) ::
   (-1031500800, -18000) :: (-1018198800, -21600) :: (-1000051200, -18000) ::
   (-986749200, -21600) :: (-967996800, -18000) :: (-955299600, -21600) ::
   (-936547200, -18000) :: (-923245200, -21600) :: (-905097600, -18000) ::
   (-891795600, -21600) :: (-880214400, -18000) :: (-769395600, -18000) ::
   (-765392400, -21600) :: (-747244800, -18000) :: (-733942800, -21600) ::
   (-715795200, -18000) :: (-702493200, -21600) :: (-684345600, -18000) ::
   (-671043600, -21600) :: (-652896000, -18000) :: (-639594000, -21600) ::
   (-620841600, -18000) :: (-608144400, -21600) :: (-589392000, -18000) ::
   (-576090000, -21600) :: (-557942400, -18000) :: (-544640400, -21600) ::
   (-526492800, -18000) :: (-513190800, -21600) :: (-495043200, -18000) ::
   (-481741200, -21600) :: (-463593600, -18000) :: (-447267600, -21600) ::
   (-431539200, -18000) :: (-415818000, -21600) :: (-400089600, -18000) ::
   (-384368400, -21600) :: (-368640000, -18000) :: (-352918800, -21600) ::
   (-337190400, -18000) :: (-321469200, -21600) :: (-305740800, -18000) ::
   (-289414800, -21600) :: (-273686400, -18000) :: (-257965200, -21600) ::
   (-242236800, -18000) :: (-226515600, -21600) :: (-210787200, -18000) ::
   (-195066000, -21600) :: (-179337600, -18000) :: (-163616400, -21600) ::
   (-147888000, -18000) :: (-131562000, -21600) :: (-116438400, -18000) ::
   (-100112400, -21600) :: (-84384000, -18000) :: (-68662800, -21600) :: (-52934400, -18000) ::
   (-37213200, -21600) :: (-21484800, -18000) :: (-5763600, -21600) :: (9964800, -18000) ::
   (25686000, -21600) :: (41414400, -18000) :: (57740400, -21600) :: (73468800, -18000) ::
   (89190000, -21600) :: (104918400, -18000) :: (120639600, -21600) :: (126691200, -18000) ::
   (152089200, -21600) :: (162374400, -18000) :: (183538800, -21600) :: (199267200, -18000) ::
   (215593200, -21600) :: (230716800, -18000) :: (247042800, -21600) :: (262771200, -18000) ::
   (278492400, -21600) :: (294220800, -18000) :: (309942000, -21600) :: (325670400, -18000) ::
   (341391600, -21600) :: (357120000, -18000) :: (372841200, -21600) :: (388569600, -18000) ::
   (404895600, -21600) :: (420019200, -18000) :: (436345200, -21600) :: (452073600, -18000) ::
   (467794800, -21600) :: (483523200, -18000) :: (499244400, -21600) :: (514972800, -18000) ::
   (530694000, -21600) :: (544608000, -18000) :: (562143600, -21600) :: (576057600, -18000) ::
   (594198000, -21600) :: (607507200, -18000) :: (625647600, -21600) :: (638956800, -18000) ::
   (657097200, -21600) :: (671011200, -18000) :: (688546800, -21600) :: (702460800, -18000) ::
   (719996400, -21600) :: (733910400, -18000) :: (752050800, -21600) :: (765360000, -18000) ::
   (783500400, -21600) :: (796809600, -18000) :: (814950000, -21600) :: (828864000, -18000) ::
   (846399600, -21600) :: (860313600, -18000) :: (877849200, -21600) :: (891763200, -18000) ::
   (909298800, -21600) :: (923212800, -18000) :: (941353200, -21600) :: (954662400, -18000) ::
   (972802800, -21600) :: (986112000, -18000) :: (1004252400, -21600) :: (1018166400, -18000) ::
   (1035702000, -21600) :: (1049616000, -18000) :: (1067151600, -21600) ::
   (1081065600, -18000) :: (1099206000, -21600) :: (1112515200, -18000) ::
   (1130655600, -21600) :: (1143964800, -18000) :: (1162105200, -21600) ::
   (1173600000, -18000) :: (1194159600, -21600) :: (1205049600, -18000) ::
   (1225609200, -21600) :: (1236499200, -18000) :: (1257058800, -21600) ::
   (1268553600, -18000) :: (1289113200, -21600) :: (1300003200, -18000) ::
   (1320562800, -21600) :: (1331452800, -18000) :: (1352012400, -21600) ::
   (1362902400, -18000) :: (1383462000, -21600) :: (1394352000, -18000) ::
   (1414911600, -21600) :: (1425801600, -18000) :: (1446361200, -21600) ::
   (1457856000, -18000) :: (1478415600, -21600) :: (1489305600, -18000) ::
   (1509865200, -21600) :: (1520755200, -18000) :: (1541314800, -21600) ::
   (1552204800, -18000) :: (1572764400, -21600) :: (1583654400, -18000) ::
   (1604214000, -21600) :: (1615708800, -18000) :: (1636268400, -21600) ::
   (1647158400, -18000) :: (1667718000, -21600) :: (1678608000, -18000) ::
   (1699167600, -21600) :: (1710057600, -18000) :: (1730617200, -21600) ::
   (1741507200, -18000) :: (1762066800, -21600) :: (1772956800, -18000) ::
   (1793516400, -21600) :: (1805011200, -18000) :: (1825570800, -21600) ::
   (1836460800, -18000) :: (1857020400, -21600) :: (1867910400, -18000) ::
   (1888470000, -21600) :: (1899360000, -18000) :: (1919919600, -21600) ::
   (1930809600, -18000) :: (1951369200, -21600) :: (1962864000, -18000) ::
   (1983423600, -21600) :: (1994313600, -18000) :: (2014873200, -21600) ::
   (2025763200, -18000) :: (2046322800, -21600) :: (2057212800, -18000) ::
   (2077772400, -21600) :: (2088662400, -18000) :: (2109222000, -21600) ::
   (2120112000, -18000) :: (2140671600, -21600) :: [])

/-- `timezone('America/Lima')` (`exchange_calendar_xlim.py` line 117). -/
def Zones.americaLima : Tz := .ofSeconds (-18480)
  ((-2147483648, -18540) :: (-1938538284, -18000) :: (-1009825200, -14400) ::
   (-1002052800, -18000) :: (-986756400, -14400) :: (-971035200, -18000) ::
   (-955306800, -14400) :: (-939585600, -18000) :: (504939600, -14400) :: (512712000, -18000) ::
   (536475600, -14400) :: (544248000, -18000) :: (631170000, -14400) :: (638942400, -18000) ::
   (757400400, -14400) :: (765172800, -18000) :: (2147483647, -18000) :: [])

/-- `timezone('America/Mexico_City')` (`exchange_calendar_xmex.py` line 105). -/
def Zones.americaMexicoCity : Tz := .ofSeconds (-23820)
  ((-1514739600, -25200) :: (-1343149200, -21600) :: (-1234807200, -25200) ::
   (-1220461200, -21600) :: (-1207159200, -25200) :: (-1191344400, -21600) ::
   (-975261600, -18000) :: (-963169200, -21600) :: (-917114400, -18000) ::
   (-907354800, -21600) :: (-821901600, -18000) :: (-810068400, -21600) ::
   (-627501600, -18000) :: (-612990000, -21600) :: (828864000, -18000) :: (846399600, -21600) ::
   (860313600, -18000) :: (877849200, -21600) :: (891763200, -18000) :: (909298800, -21600) ::
   (923212800, -18000) :: (941353200, -21600) :: (954662400, -18000) :: (972802800, -21600) ::
   (989136000, -18000) :: (1001833200, -21600) :: (1018166400, -18000) :: (1035702000, -21600) ::
   (1049616000, -18000) :: (1067151600, -21600) :: (1081065600, -18000) ::
   (1099206000, -21600) :: (1112515200, -18000) :: (1130655600, -21600) ::
   (1143964800, -18000) :: (1162105200, -21600) :: (1175414400, -18000) ::
   (1193554800, -21600) :: (1207468800, -18000) :: (1225004400, -21600) ::
   (1238918400, -18000) :: (1256454000, -21600) :: (1270368000, -18000) ::
   (1288508400, -21600) :: (1301817600, -18000) :: (1319958000, -21600) ::
   (1333267200, -18000) :: (1351407600, -21600) :: (1365321600, -18000) ::
   (1382857200, -21600) :: (1396771200, -18000) :: (1414306800, -21600) ::
   (1428220800, -18000) :: (1445756400, -21600) :: (1459670400, -18000) ::
   (1477810800, -21600) :: (1491120000, -18000) :: (1509260400, -21600) ::
   (1522569600, -18000) :: (1540710000, -21600) :: (1554624000, -18000) ::
   (1572159600, -21600) :: (1586073600, -18000) :: (1603609200, -21600) ::
   (1617523200, -18000) :: (1635663600, -21600) :: (1648972800, -18000) ::
   (1667113200, -21600) :: [])

/-- `timezone('America/New_York')` (`exchange_calendar_iepa.py` line 36, `exchange_calendar_xbog.py` line 169,
`exchange_calendar_xnys.py` line 162, `us_futures_calendar.py` line 54). -/
def Zones.americaNewYork : Tz := .ofSeconds (-17760)
  ((-2147483648, -18000) :: (-1633280400, -14400) :: (-1615140000, -18000) ::
   (-1601830800, -14400) :: (-1583690400, -18000) :: (-1570381200, -14400) ::
   (-1551636000, -18000) :: (-1536512400, -14400) :: (-1523210400, -18000) ::
   (-1504458000, -14400) :: (-1491760800, -18000) :: (-1473008400, -14400) ::
   (-1459706400, -18000) :: (-1441558800, -14400) :: (-1428256800, -18000) ::
   (-1410109200, -14400) :: (-1396807200, -18000) :: (-1378659600, -14400) ::
   (-1365357600, -18000) :: (-1347210000, -14400) :: (-1333908000, -18000) ::
   (-1315155600, -14400) :: (-1301853600, -18000) :: (-1283706000, -14400) ::
   (-1270404000, -18000) :: (-1252256400, -14400) :: (-1238954400, -18000) ::
   (-1220806800, -14400) :: (-1207504800, -18000) :: (-1189357200, -14400) ::
   (-1176055200, -18000) :: (-1157302800, -14400) :: (-1144605600, -18000) ::
   (-1125853200, -14400) :: (-1112551200, -18000) :: (-1094403600, -14400) ::
   (-1081101600, -18000) :: (-1062954000, -14400) :: (-1049652000, -18000) ::
   (-1031504400, -14400) :: (-1018202400, -18000) :: (-1000054800, -14400) ::
   (-986752800, -18000) :: (-968000400, -14400) :: (-955303200, -18000) ::
   (-936550800, -14400) :: (-923248800, -18000) :: (-905101200, -14400) ::
   (-891799200, -18000) :: (-880218000, -14400) :: (-769395600, -14400) ::
   (-765396000, -18000) :: (-747248400, -14400) :: (-733946400, -18000) ::
   (-715798800, -14400) :: (-702496800, -18000) :: (-684349200, -14400) ::
   (-671047200, -18000) :: (-652899600, -14400) :: (-639597600, -18000) ::
   (-620845200, -14400) :: (-608148000, -18000) :: (-589395600, -14400) ::
   (-576093600, -18000) :: (-557946000, -14400) :: (-544644000, -18000) ::
   (-526496400, -14400) :: (-513194400, -18000) :: (-495046800, -14400) ::
   (-481744800, -18000) :: (-463597200, -14400) :: (-447271200, -18000) ::
   (-431542800, -14400) :: (-415821600, -18000) :: (-400093200, -14400) ::
   (-384372000, -18000) :: (-368643600, -14400) :: (-352922400, -18000) ::
   (-337194000, -14400) :: (-321472800, -18000) :: (-305744400, -14400) ::
   (-289418400, -18000) :: (-273690000, -14400) :: (-257968800, -18000) ::
   (-242240400, -14400) :: (-226519200, -18000) :: (-210790800, -14400) ::
   (-195069600, -18000) :: (-179341200, -14400) :: (-163620000, -18000) ::
   (-147891600, -14400) :: (-131565600, -18000) :: (-116442000, -14400) ::
   (-100116000, -18000) :: (-84387600, -14400) :: (-68666400, -18000) :: (-52938000, -14400) ::
   (-37216800, -18000) :: (-21488400, -14400) :: (-5767200, -18000) :: (9961200, -14400) ::
   (25682400, -18000) :: (41410800, -14400) :: (57736800, -18000) :: (73465200, -14400) ::
   (89186400, -18000) :: (104914800, -14400) :: (120636000, -18000) :: (126687600, -14400) ::
   (152085600, -18000) :: (162370800, -14400) :: (183535200, -18000) :: (199263600, -14400) ::
   (215589600, -18000) :: (230713200, -14400) :: (247039200, -18000) :: (262767600, -14400) ::
   (278488800, -18000) :: (294217200, -14400) :: (309938400, -18000) :: (325666800, -14400) ::
   (341388000, -18000) :: (357116400, -14400) :: (372837600, -18000) :: (388566000, -14400) ::
   (404892000, -18000) :: (420015600, -14400) :: (436341600, -18000) :: (452070000, -14400) ::
   (467791200, -18000) :: (483519600, -14400) :: (499240800, -18000) :: (514969200, -14400) ::
   (530690400, -18000) :: (544604400, -14400) :: (562140000, -18000) :: (576054000, -14400) ::
   (594194400, -18000) :: (607503600, -14400) :: (625644000, -18000) :: (638953200, -14400) ::
   (657093600, -18000) :: (671007600, -14400) :: (688543200, -18000) :: (702457200, -14400) ::
   (719992800, -18000) :: (733906800, -14400) :: (752047200, -18000) :: (765356400, -14400) ::
   (783496800, -18000) :: (796806000, -14400) :: (814946400, -18000) :: (828860400, -14400) ::
   (846396000, -18000) :: (860310000, -14400) :: (877845600, -18000) :: (891759600, -14400) ::
   (909295200, -18000) :: (923209200, -14400) :: (941349600, -18000) :: (954658800, -14400) ::
   (972799200, -18000) :: (986108400, -14400) :: (1004248800, -18000) :: (1018162800, -14400) ::
   (1035698400, -18000) :: (1049612400, -14400) :: (1067148000, -18000) ::
   (1081062000, -14400) :: (1099202400, -18000) :: (1112511600, -14400) ::
   (1130652000, -18000) :: (1143961200, -14400) :: (1162101600, -18000) ::
   (1173596400, -14400) :: (1194156000, -18000) :: (1205046000, -14400) ::
   (1225605600, -18000) :: (1236495600, -14400) :: (1257055200, -18000) ::
   (1268550000, -14400) :: (1289109600, -18000) :: (1299999600, -14400) ::
   (1320559200, -18000) :: (1331449200, -14400) :: (1352008800, -18000) ::
   (1362898800, -14400) :: (1383458400, -18000) :: (1394348400, -14400) ::
   (1414908000, -18000) :: (1425798000, -14400) :: (1446357600, -18000) ::
   (1457852400, -14400) :: (1478412000, -18000) :: (1489302000, -14400) ::
   (1509861600, -18000) :: (1520751600, -14400) :: (1541311200, -18000) ::
   (1552201200, -14400) :: (1572760800, -18000) :: (1583650800, -14400) ::
   (1604210400, -18000) :: (1615705200, -14400) :: (1636264800, -18000) ::
   (1647154800, -14400) :: (1667714400, -18000) :: (1678604400, -14400) ::
   (1699164000, -18000) :: (1710054000, -14400) :: (1730613600, -18000) ::
   (1741503600, -14400) :: (1762063200, -18000) :: (1772953200, -14400) ::
   (1793512800, -18000) :: (1805007600, -14400) :: (1825567200, -18000) ::
   (1836457200, -14400) :: (1857016800, -18000) :: (1867906800, -14400) ::
   (1888466400, -18000) :: (1899356400, -14400) :: (1919916000, -18000) ::
   (1930806000, -14400) :: (1951365600, -18000) :: (1962860400, -14400) ::
   (1983420000, -18000) :: (1994310000, -14400) :: (2014869600, -18000) ::
   (2025759600, -14400) :: (2046319200, -18000) :: (2057209200, -14400) ::
   (2077768800, -18000) :: (2088658800, -14400) :: (2109218400, -18000) ::
   (2120108400, -14400) :: (2140668000, -18000) :: [])

/-- `timezone('America/Santiago')` (`exchange_calendar_xsgo.py` line 205). -/
def Zones.americaSantiago : Tz := .ofSeconds (-16980)
  ((-1892661435, -18000) :: (-1688410800, -16980) :: (-1619205435, -14400) ::
   (-1593806400, -16980) :: (-1335986235, -14400) :: (-1317585600, -18000) ::
   (-1304362800, -14400) :: (-1286049600, -18000) :: (-1272826800, -14400) ::
   (-1254513600, -18000) :: (-1241290800, -14400) :: (-1222977600, -18000) ::
   (-1209754800, -14400) :: (-1191355200, -18000) :: (-1178132400, -14400) ::
   (-870552000, -18000) :: (-865278000, -14400) :: (-740520000, -10800) ::
   (-736635600, -14400) :: (-718056000, -18000) :: (-713649600, -14400) :: (-36619200, -10800) ::
   (-23922000, -14400) :: (-3355200, -10800) :: (7527600, -14400) :: (24465600, -10800) ::
   (37767600, -14400) :: (55915200, -10800) :: (69217200, -14400) :: (87969600, -10800) ::
   (100666800, -14400) :: (118209600, -10800) :: (132116400, -14400) :: (150868800, -10800) ::
   (163566000, -14400) :: (182318400, -10800) :: (195620400, -14400) :: (213768000, -10800) ::
   (227070000, -14400) :: (245217600, -10800) :: (258519600, -14400) :: (277272000, -10800) ::
   (289969200, -14400) :: (308721600, -10800) :: (321418800, -14400) :: (340171200, -10800) ::
   (353473200, -14400) :: (371620800, -10800) :: (384922800, -14400) :: (403070400, -10800) ::
   (416372400, -14400) :: (434520000, -10800) :: (447822000, -14400) :: (466574400, -10800) ::
   (479271600, -14400) :: (498024000, -10800) :: (510721200, -14400) :: (529473600, -10800) ::
   (545194800, -14400) :: (560923200, -10800) :: (574225200, -14400) :: (592372800, -10800) ::
   (605674800, -14400) :: (624427200, -10800) :: (637124400, -14400) :: (653457600, -10800) ::
   (668574000, -14400) :: (687326400, -10800) :: (700628400, -14400) :: (718776000, -10800) ::
   (732078000, -14400) :: (750225600, -10800) :: (763527600, -14400) :: (781675200, -10800) ::
   (794977200, -14400) :: (813729600, -10800) :: (826426800, -14400) :: (845179200, -10800) ::
   (859690800, -14400) :: (876628800, -10800) :: (889930800, -14400) :: (906868800, -10800) ::
   (923194800, -14400) :: (939528000, -10800) :: (952830000, -14400) :: (971582400, -10800) ::
   (984279600, -14400) :: (1003032000, -10800) :: (1015729200, -14400) :: (1034481600, -10800) ::
   (1047178800, -14400) :: (1065931200, -10800) :: (1079233200, -14400) ::
   (1097380800, -10800) :: (1110682800, -14400) :: (1128830400, -10800) ::
   (1142132400, -14400) :: (1160884800, -10800) :: (1173582000, -14400) ::
   (1192334400, -10800) :: (1206846000, -14400) :: (1223784000, -10800) ::
   (1237086000, -14400) :: (1255233600, -10800) :: (1270350000, -14400) ::
   (1286683200, -10800) :: (1304823600, -14400) :: (1313899200, -10800) ::
   (1335668400, -14400) :: (1346558400, -10800) :: (1367118000, -14400) ::
   (1378612800, -10800) :: (1398567600, -14400) :: (1410062400, -10800) ::
   (1463281200, -14400) :: (1471147200, -10800) :: (1494730800, -14400) ::
   (1502596800, -10800) :: (1526180400, -14400) :: (1534046400, -10800) ::
   (1554606000, -14400) :: (1567915200, -10800) :: (1586055600, -14400) ::
   (1599364800, -10800) :: (1617505200, -14400) :: (1630814400, -10800) ::
   (1648954800, -14400) :: (1662868800, -10800) :: (1680404400, -14400) ::
   (1693713600, -10800) :: (1712458800, -14400) :: (1725768000, -10800) ::
   (1743908400, -14400) :: (1757217600, -10800) :: (1775358000, -14400) ::
   (1788667200, -10800) :: (1806807600, -14400) :: (1820116800, -10800) ::
   (1838257200, -14400) :: (1851566400, -10800) :: (1870311600, -14400) ::
   (1883016000, -10800) :: (1901761200, -14400) :: (1915070400, -10800) ::
   (1933210800, -14400) :: (1946520000, -10800) :: (1964660400, -14400) ::
   (1977969600, -10800) :: (1996110000, -14400) :: (2009419200, -10800) ::
   (2027559600, -14400) :: (2040868800, -10800) :: (2059614000, -14400) ::
   (2072318400, -10800) :: (2091063600, -14400) :: (2104372800, -10800) ::
   (2122513200, -14400) :: (2135822400, -10800) :: (2147483647, -10800) :: [])

/-- `timezone('America/Sao_Paulo')` (`exchange_calendar_bvmf.py` line 189). -/
def Zones.americaSaoPaulo : Tz := .ofSeconds (-11160)
  ((-1767214412, -10800) :: (-1206957600, -7200) :: (-1191362400, -10800) ::
   (-1175374800, -7200) :: (-1159826400, -10800) :: (-633819600, -7200) ::
   (-622069200, -10800) :: (-602283600, -7200) :: (-591832800, -10800) :: (-570747600, -7200) ::
   (-560210400, -10800) :: (-539125200, -7200) :: (-531352800, -10800) :: (-195426000, -7200) ::
   (-184197600, -10800) :: (-155163600, -7200) :: (-150069600, -10800) :: (-128898000, -7200) ::
   (-121125600, -10800) :: (-99954000, -7200) :: (-89589600, -10800) :: (-68418000, -7200) ::
   (-57967200, -10800) :: (499748400, -7200) :: (511236000, -10800) :: (530593200, -7200) ::
   (540266400, -10800) :: (562129200, -7200) :: (571197600, -10800) :: (592974000, -7200) ::
   (602042400, -10800) :: (624423600, -7200) :: (634701600, -10800) :: (656478000, -7200) ::
   (666756000, -10800) :: (687927600, -7200) :: (697600800, -10800) :: (719982000, -7200) ::
   (728445600, -10800) :: (750826800, -7200) :: (761709600, -10800) :: (782276400, -7200) ::
   (793159200, -10800) :: (813726000, -7200) :: (824004000, -10800) :: (844570800, -7200) ::
   (856058400, -10800) :: (876106800, -7200) :: (888717600, -10800) :: (908074800, -7200) ::
   (919562400, -10800) :: (938919600, -7200) :: (951616800, -10800) :: (970974000, -7200) ::
   (982461600, -10800) :: (1003028400, -7200) :: (1013911200, -10800) :: (1036292400, -7200) ::
   (1045360800, -10800) :: (1066532400, -7200) :: (1076810400, -10800) :: (1099364400, -7200) ::
   (1108864800, -10800) :: (1129431600, -7200) :: (1140314400, -10800) :: (1162695600, -7200) ::
   (1172368800, -10800) :: (1192330800, -7200) :: (1203213600, -10800) :: (1224385200, -7200) ::
   (1234663200, -10800) :: (1255834800, -7200) :: (1266717600, -10800) :: (1287284400, -7200) ::
   (1298167200, -10800) :: (1318734000, -7200) :: (1330221600, -10800) :: (1350788400, -7200) ::
   (1361066400, -10800) :: (1382238000, -7200) :: (1392516000, -10800) :: (1413687600, -7200) ::
   (1424570400, -10800) :: (1445137200, -7200) :: (1456020000, -10800) :: (1476586800, -7200) ::
   (1487469600, -10800) :: (1508036400, -7200) :: (1518919200, -10800) :: (1541300400, -7200) ::
   (1550368800, -10800) :: (2147483647, -10800) :: [])

/-- `timezone('America/Toronto')` (`exchange_calendar_xtse.py` line 132). -/
def Zones.americaToronto : Tz := .ofSeconds (-19080)
  ((-2147483648, -18000) :: (-1632070800, -14400) :: (-1615140000, -18000) ::
   (-1601753400, -14400) :: (-1583697600, -18000) :: (-1567357200, -14400) ::
   (-1554667200, -18000) :: (-1534698000, -14400) :: (-1524074400, -18000) ::
   (-1503248400, -14400) :: (-1492365600, -18000) :: (-1471798800, -14400) ::
   (-1460916000, -18000) :: (-1440954000, -14400) :: (-1428861600, -18000) ::
   (-1409504400, -14400) :: (-1397412000, -18000) :: (-1378054800, -14400) ::
   (-1365962400, -18000) :: (-1346605200, -14400) :: (-1333908000, -18000) ::
   (-1315155600, -14400) :: (-1301853600, -18000) :: (-1283706000, -14400) ::
   (-1270404000, -18000) :: (-1252256400, -14400) :: (-1238954400, -18000) ::
   (-1220806800, -14400) :: (-1207504800, -18000) :: (-1188752400, -14400) ::
   (-1176055200, -18000) :: (-1157302800, -14400) :: (-1144000800, -18000) ::
   (-1125853200, -14400) :: (-1112551200, -18000) :: (-1094403600, -14400) ::
   (-1081101600, -18000) :: (-1062954000, -14400) :: (-1049652000, -18000) ::
   (-1031504400, -14400) :: (-1018202400, -18000) :: (-1000054800, -14400) ::
   (-986752800, -18000) :: (-968000400, -14400) :: (-955303200, -18000) ::
   (-936550800, -14400) :: (-880218000, -14400) :: (-769395600, -14400) ::
   (-765396000, -18000) :: (-747248400, -14400) :: (-733946400, -18000) ::
   (-715798800, -14400) :: (-702496800, -18000) :: (-684349200, -14400) ::
   (-671047200, -18000) :: (-652899600, -14400) :: (-634154400, -18000) ::
   (-620845200, -14400) :: (-602704800, -18000) :: (-589395600, -14400) ::
   (-576093600, -18000) :: (-557946000, -14400) :: (-544644000, -18000) ::
   (-526496400, -14400) :: (-513194400, -18000) :: (-495046800, -14400) ::
   (-481744800, -18000) :: (-463597200, -14400) :: (-450295200, -18000) ::
   (-431542800, -14400) :: (-418240800, -18000) :: (-400093200, -14400) ::
   (-384372000, -18000) :: (-368643600, -14400) :: (-352922400, -18000) ::
   (-337194000, -14400) :: (-321472800, -18000) :: (-305744400, -14400) ::
   (-289418400, -18000) :: (-273690000, -14400) :: (-257968800, -18000) ::
   (-242240400, -14400) :: (-226519200, -18000) :: (-210790800, -14400) ::
   (-195069600, -18000) :: (-179341200, -14400) :: (-163620000, -18000) ::
   (-147891600, -14400) :: (-131565600, -18000) :: (-116442000, -14400) ::
   (-100116000, -18000) :: (-84387600, -14400) :: (-68666400, -18000) :: (-52938000, -14400) ::
   (-37216800, -18000) :: (-21488400, -14400) :: (-5767200, -18000) :: (9961200, -14400) ::
   (25682400, -18000) :: (41410800, -14400) :: (57736800, -18000) :: (73465200, -14400) ::
   (89186400, -18000) :: (104914800, -14400) :: (120636000, -18000) :: (136364400, -14400) ::
   (152085600, -18000) :: (167814000, -14400) :: (183535200, -18000) :: (199263600, -14400) ::
   (215589600, -18000) :: (230713200, -14400) :: (247039200, -18000) :: (262767600, -14400) ::
   (278488800, -18000) :: (294217200, -14400) :: (309938400, -18000) :: (325666800, -14400) ::
   (341388000, -18000) :: (357116400, -14400) :: (372837600, -18000) :: (388566000, -14400) ::
   (404892000, -18000) :: (420015600, -14400) :: (436341600, -18000) :: (452070000, -14400) ::
   (467791200, -18000) :: (483519600, -14400) :: (499240800, -18000) :: (514969200, -14400) ::
   (530690400, -18000) :: (544604400, -14400) :: (562140000, -18000) :: (576054000, -14400) ::
   (594194400, -18000) :: (607503600, -14400) :: (625644000, -18000) :: (638953200, -14400) ::
   (657093600, -18000) :: (671007600, -14400) :: (688543200, -18000) :: (702457200, -14400) ::
   (719992800, -18000) :: (733906800, -14400) :: (752047200, -18000) :: (765356400, -14400) ::
   (783496800, -18000) :: (796806000, -14400) :: (814946400, -18000) :: (828860400, -14400) ::
   (846396000, -18000) :: (860310000, -14400) :: (877845600, -18000) :: (891759600, -14400) ::
   (909295200, -18000) :: (923209200, -14400) :: (941349600, -18000) :: (954658800, -14400) ::
   (972799200, -18000) :: (986108400, -14400) :: (1004248800, -18000) :: (1018162800, -14400) ::
   (1035698400, -18000) :: (1049612400, -14400) :: (1067148000, -18000) ::
   (1081062000, -14400) :: (1099202400, -18000) :: (1112511600, -14400) ::
   (1130652000, -18000) :: (1143961200, -14400) :: (1162101600, -18000) ::
   (1173596400, -14400) :: (1194156000, -18000) :: (1205046000, -14400) ::
   (1225605600, -18000) :: (1236495600, -14400) :: (1257055200, -18000) ::
   (1268550000, -14400) :: (1289109600, -18000) :: (1299999600, -14400) ::
   (1320559200, -18000) :: (1331449200, -14400) :: (1352008800, -18000) ::
   (1362898800, -14400) :: (1383458400, -18000) :: (1394348400, -14400) ::
   (1414908000, -18000) :: (1425798000, -14400) :: (1446357600, -18000) ::
   (1457852400, -14400) :: (1478412000, -18000) :: (1489302000, -14400) ::
   (1509861600, -18000) :: (1520751600, -14400) :: (1541311200, -18000) ::
   (1552201200, -14400) :: (1572760800, -18000) :: (1583650800, -14400) ::
   (1604210400, -18000) :: (1615705200, -14400) :: (1636264800, -18000) ::
   (1647154800, -14400) :: (1667714400, -18000) :: (1678604400, -14400) ::
   (1699164000, -18000) :: (1710054000, -14400) :: (1730613600, -18000) ::
   (1741503600, -14400) :: (1762063200, -18000) :: (1772953200, -14400) ::
   (1793512800, -18000) :: (1805007600, -14400) :: (1825567200, -18000) ::
   (1836457200, -14400) :: (1857016800, -18000) :: (1867906800, -14400) ::
   (1888466400, -18000) :: (1899356400, -14400) :: (1919916000, -18000) ::
   (1930806000, -14400) :: (1951365600, -18000) :: (1962860400, -14400) ::
   (1983420000, -18000) :: (1994310000, -14400) :: (2014869600, -18000) ::
   (2025759600, -14400) :: (2046319200, -18000) :: (2057209200, -14400) ::
   (2077768800, -18000) :: (2088658800, -14400) :: (2109218400, -18000) ::
   (2120108400, -14400) :: (2140668000, -18000) :: [])

/-- `timezone('Asia/Bangkok')` (`exchange_calendar_xbkk.py` line 82). -/
def Zones.asiaBangkok : Tz := .ofSeconds (24120)
  ((-1570084924, 25200) :: (2147483647, 25200) :: [])

/-- `timezone('Asia/Calcutta')` (`exchange_calendar_xbom.py` line 343). -/
def Zones.asiaCalcutta : Tz := .ofSeconds (21180)
  ((-2147483648, 19260) :: (-2019705670, 19800) :: (-891581400, 23400) :: (-872058600, 19800) ::
   (-862637400, 23400) :: (-764145000, 19800) :: [])

/-- `timezone('Asia/Hong_Kong')` (`exchange_calendar_xhkg.py` line 277). -/
def Zones.asiaHongKong : Tz := .ofSeconds (27420)
  ((-2056690800, 28800) :: (-900910800, 32400) :: (-891579600, 30600) :: (-884248200, 32400) ::
   (-761209200, 28800) :: (-747907200, 32400) :: (-728541000, 28800) :: (-717049800, 32400) ::
   (-697091400, 28800) :: (-683785800, 32400) :: (-668061000, 28800) :: (-654755400, 32400) ::
   (-636611400, 28800) :: (-623305800, 32400) :: (-605161800, 28800) :: (-591856200, 32400) ::
   (-573712200, 28800) :: (-559801800, 32400) :: (-541657800, 28800) :: (-528352200, 32400) ::
   (-510211800, 28800) :: (-498112200, 32400) :: (-478762200, 28800) :: (-466662600, 32400) ::
   (-446707800, 28800) :: (-435213000, 32400) :: (-415258200, 28800) :: (-403158600, 32400) ::
   (-383808600, 28800) :: (-371709000, 32400) :: (-352359000, 28800) :: (-340259400, 32400) ::
   (-320909400, 28800) :: (-308809800, 32400) :: (-288855000, 28800) :: (-277360200, 32400) ::
   (-257405400, 28800) :: (-245910600, 32400) :: (-225955800, 28800) :: (-213856200, 32400) ::
   (-194506200, 28800) :: (-182406600, 32400) :: (-163056600, 28800) :: (-148537800, 32400) ::
   (-132816600, 28800) :: (-117088200, 32400) :: (-101367000, 28800) :: (-85638600, 32400) ::
   (-69312600, 28800) :: (-53584200, 32400) :: (-37863000, 28800) :: (-22134600, 32400) ::
   (-6413400, 28800) :: (9315000, 32400) :: (25036200, 28800) :: (40764600, 32400) ::
   (56485800, 28800) :: (72214200, 32400) :: (88540200, 28800) :: (104268600, 32400) ::
   (119989800, 28800) :: (126041400, 32400) :: (151439400, 28800) :: (167167800, 32400) ::
   (182889000, 28800) :: (198617400, 32400) :: (214338600, 28800) :: (295385400, 32400) ::
   (309292200, 28800) :: [])

/-- `timezone('Asia/Jakarta')` (`exchange_calendar_xidx.py` line 68). -/
def Zones.asiaJakarta : Tz := .ofSeconds (25620)
  ((-1451719200, 26400) :: (-1172906400, 27000) :: (-876641400, 32400) :: (-766054800, 27000) ::
   (-683883000, 28800) :: (-620812800, 27000) :: (-189415800, 25200) :: [])

/-- `timezone('Asia/Karachi')` (`exchange_calendar_xkar.py` line 56). -/
def Zones.asiaKarachi : Tz := .ofSeconds (16080)
  ((-1988166492, 19800) :: (-862637400, 23400) :: (-764145000, 19800) :: (-576135000, 18000) ::
   (38775600, 18000) :: (1018119600, 21600) :: (1033840800, 18000) :: (1212260400, 21600) ::
   (1225476000, 18000) :: (1239735600, 21600) :: (1257012000, 18000) :: [])

/-- `timezone('Asia/Kuala_Lumpur')` (`exchange_calendar_xkls.py` line 82). -/
def Zones.asiaKualaLumpur : Tz := .ofSeconds (24420)
  ((-2147483648, 24900) :: (-2038200925, 25200) :: (-1167634800, 26400) :: (-1073028000, 26400) ::
   (-894180000, 27000) :: (-879665400, 32400) :: (-767005200, 27000) :: (378662400, 28800) ::
   (2147483647, 28800) :: [])

/-- `timezone('Asia/Manila')` (`exchange_calendar_xphs.py` line 199). -/
def Zones.asiaManila : Tz := .ofSeconds (-57360)
  ((-2147483648, 28800) :: (-1046678400, 32400) :: (-1040115600, 28800) :: (-885024000, 32400) ::
   (-880016400, 32400) :: (-783594000, 32400) :: (-760093200, 28800) :: (-496224000, 32400) ::
   (-491562000, 28800) :: (228326400, 32400) :: (243702000, 28800) :: (643219200, 32400) ::
   (649177200, 28800) :: [])

/-- `timezone('Asia/Seoul')` (`exchange_calendar_xkrx.py` line 569). -/
def Zones.asiaSeoul : Tz := .ofSeconds (30480)
  ((-1948782472, 30600) :: (-1830414600, 32400) :: (-767350800, 32400) :: (-681210000, 36000) ::
   (-672228000, 32400) :: (-654771600, 36000) :: (-640864800, 32400) :: (-623408400, 36000) ::
   (-609415200, 32400) :: (-588848400, 36000) :: (-577965600, 32400) :: (-498128400, 30600) ::
   (-462702600, 34200) :: (-451733400, 30600) :: (-429784200, 34200) :: (-418296600, 30600) ::
   (-399544200, 34200) :: (-387451800, 30600) :: (-368094600, 34200) :: (-356002200, 30600) ::
   (-336645000, 34200) :: (-324552600, 30600) :: (-305195400, 34200) :: (-293103000, 30600) ::
   (-264933000, 32400) :: (547578000, 36000) :: (560883600, 32400) :: (579027600, 36000) ::
   (592333200, 32400) :: [])

/-- `timezone('Asia/Shanghai')` (`exchange_calendar_xshg.py` line 500). -/
def Zones.asiaShanghai : Tz := .ofSeconds (29160)
  ((-2147483648, 28800) :: (-1600675200, 32400) :: (-1585904400, 28800) :: (-933667200, 32400) ::
   (-922093200, 28800) :: (-908870400, 32400) :: (-888829200, 28800) :: (-881049600, 32400) ::
   (-767869200, 28800) :: (-745833600, 32400) :: (-733827600, 28800) :: (-716889600, 32400) ::
   (-699613200, 28800) :: (-683884800, 32400) :: (-670669200, 28800) :: (-652348800, 32400) ::
   (-650019600, 28800) :: (515527200, 32400) :: (527014800, 28800) :: (545162400, 32400) ::
   (558464400, 28800) :: (577216800, 32400) :: (589914000, 28800) :: (608666400, 32400) ::
   (621968400, 28800) :: (640116000, 32400) :: (653418000, 28800) :: (671565600, 32400) ::
   (684867600, 28800) :: [])

/-- `timezone('Asia/Singapore')` (`exchange_calendar_xses.py` line 371). -/
def Zones.asiaSingapore : Tz := .ofSeconds (24900)
  ((-2038200925, 25200) :: (-1167634800, 26400) :: (-1073028000, 26400) :: (-894180000, 27000) ::
   (-879665400, 32400) :: (-767005200, 27000) :: (378662400, 28800) :: (2147483647, 28800) :: [])

/-- `timezone('Asia/Taipei')` (`exchange_calendar_xtai.py` line 286). -/
def Zones.asiaTaipei : Tz := .ofSeconds (29160)
  ((-2147483648, 28800) :: (-1017820800, 32400) :: (-766224000, 28800) :: (-745833600, 32400) ::
   (-733827600, 28800) :: (-716889600, 32400) :: (-699613200, 28800) :: (-683884800, 32400) ::
   (-670669200, 28800) :: (-652348800, 32400) :: (-639133200, 28800) :: (-620812800, 32400) ::
   (-607597200, 28800) :: (-589276800, 32400) :: (-576061200, 28800) :: (-562924800, 32400) ::
   (-541760400, 28800) :: (-528710400, 32400) :: (-510224400, 28800) :: (-497174400, 32400) ::
   (-478688400, 28800) :: (-465638400, 32400) :: (-449830800, 28800) :: (-434016000, 32400) ::
   (-418208400, 28800) :: (-402480000, 32400) :: (-386672400, 28800) :: (-370944000, 32400) ::
   (-355136400, 28800) :: (-339408000, 32400) :: (-323600400, 28800) :: (-302515200, 32400) ::
   (-291978000, 28800) :: (-270979200, 32400) :: (-260442000, 28800) :: (133977600, 32400) ::
   (149785200, 28800) :: (165513600, 32400) :: (181321200, 28800) :: (299606400, 32400) ::
   (307551600, 28800) :: [])

/-- `timezone('Asia/Tel_Aviv')` (`exchange_calendar_xtae.py` line 74). -/
def Zones.asiaTelAviv : Tz := .ofSeconds (8460)
  ((-1641003640, 7200) :: (-933638400, 10800) :: (-923097600, 7200) :: (-919036800, 10800) ::
   (-857347200, 7200) :: (-844300800, 10800) :: (-825811200, 7200) :: (-812678400, 10800) ::
   (-794188800, 7200) :: (-779846400, 10800) :: (-762652800, 7200) :: (-748310400, 10800) ::
   (-731116800, 7200) :: (-681955200, 14400) :: (-673228800, 10800) :: (-667958400, 7200) ::
   (-652320000, 10800) :: (-636422400, 7200) :: (-622080000, 10800) :: (-608947200, 7200) ::
   (-591840000, 10800) :: (-572486400, 7200) :: (-558576000, 10800) :: (-542851200, 7200) ::
   (-527731200, 10800) :: (-514425600, 7200) :: (-490838400, 10800) :: (-482976000, 7200) ::
   (-459388800, 10800) :: (-451526400, 7200) :: (-428544000, 10800) :: (-418262400, 7200) ::
   (-400118400, 10800) :: (-387417600, 7200) :: (142380000, 10800) :: (150843600, 7200) ::
   (167176800, 10800) :: (178664400, 7200) :: (334101600, 10800) :: (337730400, 7200) ::
   (452642400, 10800) :: (462319200, 7200) :: (482277600, 10800) :: (494370000, 7200) ::
   (516751200, 10800) :: (526424400, 7200) :: (545436000, 10800) :: (558478800, 7200) ::
   (576626400, 10800) :: (589323600, 7200) :: (609890400, 10800) :: (620773200, 7200) ::
   (638316000, 10800) :: (651618000, 7200) :: (669765600, 10800) :: (683672400, 7200) ::
   (701820000, 10800) :: (715726800, 7200) :: (733701600, 10800) :: (747176400, 7200) ::
   (765151200, 10800) :: (778021200, 7200) :: (796600800, 10800) :: (810075600, 7200) ::
   (826840800, 10800) :: (842821200, 7200) :: (858895200, 10800) :: (874184400, 7200) ::
   (890344800, 10800) :: (905029200, 7200) :: (923011200, 10800) :: (936313200, 7200) ::
   (955670400, 10800) :: (970783200, 7200) :: (986770800, 10800) :: (1001282400, 7200) ::
   (1017356400, 10800) :: (1033941600, 7200) :: (1048806000, 10800) :: (1065132000, 7200) ::
   (1081292400, 10800) :: (1095804000, 7200) :: (1112313600, 10800) :: (1128812400, 7200) ::
   (1143763200, 10800) :: (1159657200, 7200) :: (1175212800, 10800) :: (1189897200, 7200) ::
   (1206662400, 10800) :: (1223161200, 7200) :: (1238112000, 10800) :: (1254006000, 7200) ::
   (1269561600, 10800) :: (1284246000, 7200) :: (1301616000, 10800) :: (1317510000, 7200) ::
   (1333065600, 10800) :: (1348354800, 7200) :: (1364515200, 10800) :: (1382828400, 7200) ::
   (1395964800, 10800) :: (1414278000, 7200) :: (1427414400, 10800) :: (1445727600, 7200) ::
   (1458864000, 10800) :: (1477782000, 7200) :: (1490313600, 10800) :: (1509231600, 7200) ::
   (1521763200, 10800) :: (1540681200, 7200) :: (1553817600, 10800) :: (1572130800, 7200) ::
   (1585267200, 10800) :: (1603580400, 7200) :: (1616716800, 10800) :: (1635634800, 7200) ::
   (1648166400, 10800) :: (1667084400, 7200) :: (1679616000, 10800) :: (1698534000, 7200) ::
   (1711670400, 10800) :: (1729983600, 7200) :: (1743120000, 10800) :: (1761433200, 7200) ::
   (1774569600, 10800) :: (1792882800, 7200) :: (1806019200, 10800) :: (1824937200, 7200) ::
   (1837468800, 10800) :: (1856386800, 7200) :: (1868918400, 10800) :: (1887836400, 7200) ::
   (1900972800, 10800) :: (1919286000, 7200) :: (1932422400, 10800) :: (1950735600, 7200) ::
   (1963872000, 10800) :: (1982790000, 7200) :: (1995321600, 10800) :: (2014239600, 7200) ::
   (2026771200, 10800) :: (2045689200, 7200) :: (2058220800, 10800) :: (2077138800, 7200) ::
   (2090275200, 10800) :: (2108588400, 7200) :: (2121724800, 10800) :: (2140038000, 7200) :: [])

/-- `timezone('Asia/Tokyo')` (`exchange_calendar_xtks.py` line 92). -/
def Zones.asiaTokyo : Tz := .ofSeconds (33540)
  ((-2147483648, 32400) :: (-683802000, 36000) :: (-672310800, 32400) :: (-654771600, 36000) ::
   (-640861200, 32400) :: (-620298000, 36000) :: (-609411600, 32400) :: (-588848400, 36000) ::
   (-577962000, 32400) :: [])

/-- `timezone('Atlantic/Reykjavik')` (`exchange_calendar_xice.py` line 101). -/
def Zones.atlanticReykjavik : Tz := .ofSeconds (-5280)
  ((-1956609120, -3600) :: (-1668211200, 0) :: (-1647212400, -3600) :: (-1636675200, 0) ::
   (-1613430000, -3600) :: (-1605139200, 0) :: (-1581894000, -3600) :: (-1539561600, 0) ::
   (-1531350000, -3600) :: (-968025600, 0) :: (-952293600, -3600) :: (-942008400, 0) ::
   (-920239200, -3600) :: (-909957600, 0) :: (-888789600, -3600) :: (-877903200, 0) ::
   (-857944800, -3600) :: (-846453600, 0) :: (-826495200, -3600) :: (-815004000, 0) ::
   (-795045600, -3600) :: (-783554400, 0) :: (-762991200, -3600) :: (-752104800, 0) ::
   (-731541600, -3600) :: (-717631200, 0) :: (-700092000, -3600) :: (-686181600, 0) ::
   (-668642400, -3600) :: (-654732000, 0) :: (-636588000, -3600) :: (-623282400, 0) ::
   (-605743200, -3600) :: (-591832800, 0) :: (-573688800, -3600) :: (-559778400, 0) ::
   (-542239200, -3600) :: (-528328800, 0) :: (-510789600, -3600) :: (-496879200, 0) ::
   (-479340000, -3600) :: (-465429600, 0) :: (-447890400, -3600) :: (-433980000, 0) ::
   (-415836000, -3600) :: (-401925600, 0) :: (-384386400, -3600) :: (-370476000, 0) ::
   (-352936800, -3600) :: (-339026400, 0) :: (-321487200, -3600) :: (-307576800, 0) ::
   (-290037600, -3600) :: (-276127200, 0) :: (-258588000, -3600) :: (-244677600, 0) ::
   (-226533600, -3600) :: (-212623200, 0) :: (-195084000, -3600) :: (-181173600, 0) ::
   (-163634400, -3600) :: (-149724000, 0) :: (-132184800, -3600) :: (-118274400, 0) ::
   (-100735200, -3600) :: (-86824800, 0) :: (-68680800, -3600) :: (-54770400, 0) :: [])

/-- `timezone('Australia/Sydney')` (`exchange_calendar_xasx.py` line 146). -/
def Zones.australiaSydney : Tz := .ofSeconds (36300)
  ((-2147483648, 36000) :: (-1672560000, 39600) :: (-1665388800, 36000) :: (-883641600, 39600) ::
   (-876124800, 36000) :: (-860400000, 39600) :: (-844675200, 36000) :: (-828345600, 39600) ::
   (-813225600, 36000) :: (57686400, 39600) :: (67968000, 36000) :: (89136000, 39600) ::
   (100022400, 36000) :: (120585600, 39600) :: (131472000, 36000) :: (152035200, 39600) ::
   (162921600, 36000) :: (183484800, 39600) :: (194976000, 36000) :: (215539200, 39600) ::
   (226425600, 36000) :: (246988800, 39600) :: (257875200, 36000) :: (278438400, 39600) ::
   (289324800, 36000) :: (309888000, 39600) :: (320774400, 36000) :: (341337600, 39600) ::
   (352224000, 36000) :: (372787200, 39600) :: (386697600, 36000) :: (404841600, 39600) ::
   (415728000, 36000) :: (436291200, 39600) :: (447177600, 36000) :: (467740800, 39600) ::
   (478627200, 36000) :: (499190400, 39600) :: (511286400, 36000) :: (530035200, 39600) ::
   (542736000, 36000) :: (562089600, 39600) :: (574790400, 36000) :: (594144000, 39600) ::
   (606240000, 36000) :: (625593600, 39600) :: (636480000, 36000) :: (657043200, 39600) ::
   (667929600, 36000) :: (688492800, 39600) :: (699379200, 36000) :: (719942400, 39600) ::
   (731433600, 36000) :: (751996800, 39600) :: (762883200, 36000) :: (783446400, 39600) ::
   (794332800, 36000) :: (814896000, 39600) :: (828201600, 36000) :: (846345600, 39600) ::
   (859651200, 36000) :: (877795200, 39600) :: (891100800, 36000) :: (909244800, 39600) ::
   (922550400, 36000) :: (941299200, 39600) :: (954000000, 36000) :: (967305600, 39600) ::
   (985449600, 36000) :: (1004198400, 39600) :: (1017504000, 36000) :: (1035648000, 39600) ::
   (1048953600, 36000) :: (1067097600, 39600) :: (1080403200, 36000) :: (1099152000, 39600) ::
   (1111852800, 36000) :: (1130601600, 39600) :: (1143907200, 36000) :: (1162051200, 39600) ::
   (1174752000, 36000) :: (1193500800, 39600) :: (1207411200, 36000) :: (1223136000, 39600) ::
   (1238860800, 36000) :: (1254585600, 39600) :: (1270310400, 36000) :: (1286035200, 39600) ::
   (1301760000, 36000) :: (1317484800, 39600) :: (1333209600, 36000) :: (1349539200, 39600) ::
   (1365264000, 36000) :: (1380988800, 39600) :: (1396713600, 36000) :: (1412438400, 39600) ::
   (1428163200, 36000) :: (1443888000, 39600) :: (1459612800, 36000) :: (1475337600, 39600) ::
   (1491062400, 36000) :: (1506787200, 39600) :: (1522512000, 36000) :: (1538841600, 39600) ::
   (1554566400, 36000) :: (1570291200, 39600) :: (1586016000, 36000) :: (1601740800, 39600) ::
   (1617465600, 36000) :: (1633190400, 39600) :: (1648915200, 36000) :: (1664640000, 39600) ::
   (1680364800, 36000) :: (1696089600, 39600) :: (1712419200, 36000) :: (1728144000, 39600) ::
   (1743868800, 36000) :: (1759593600, 39600) :: (1775318400, 36000) :: (1791043200, 39600) ::
   (1806768000, 36000) :: (1822492800, 39600) :: (1838217600, 36000) :: (1853942400, 39600) ::
   (1869667200, 36000) :: (1885996800, 39600) :: (1901721600, 36000) :: (1917446400, 39600) ::
   (1933171200, 36000) :: (1948896000, 39600) :: (1964620800, 36000) :: (1980345600, 39600) ::
   (1996070400, 36000) :: (2011795200, 39600) :: (2027520000, 36000) :: (2043244800, 39600) ::
   (2058969600, 36000) :: (2075299200, 39600) :: (2091024000, 36000) :: (2106748800, 39600) ::
   (2122473600, 36000) :: (2138198400, 39600) :: [])

/-- `timezone('CET')` (`exchange_calendar_xetr.py` line 111, `exchange_calendar_xfra.py` line 110). -/
def Zones.cet : Tz := .ofSeconds (3600)
  ((-1693706400, 7200) :: (-1680483600, 3600) :: (-1663455600, 7200) :: (-1650150000, 3600) ::
   (-1632006000, 7200) :: (-1618700400, 3600) :: (-938905200, 7200) :: (-857257200, 3600) ::
   (-844556400, 7200) :: (-828226800, 3600) :: (-812502000, 7200) :: (-796777200, 3600) ::
   (-781052400, 7200) :: (-766623600, 3600) :: (228877200, 7200) :: (243997200, 3600) ::
   (260326800, 7200) :: (276051600, 3600) :: (291776400, 7200) :: (307501200, 3600) ::
   (323830800, 7200) :: (338950800, 3600) :: (354675600, 7200) :: (370400400, 3600) ::
   (386125200, 7200) :: (401850000, 3600) :: (417574800, 7200) :: (433299600, 3600) ::
   (449024400, 7200) :: (465354000, 3600) :: (481078800, 7200) :: (496803600, 3600) ::
   (512528400, 7200) :: (528253200, 3600) :: (543978000, 7200) :: (559702800, 3600) ::
   (575427600, 7200) :: (591152400, 3600) :: (606877200, 7200) :: (622602000, 3600) ::
   (638326800, 7200) :: (654656400, 3600) :: (670381200, 7200) :: (686106000, 3600) ::
   (701830800, 7200) :: (717555600, 3600) :: (733280400, 7200) :: (749005200, 3600) ::
   (764730000, 7200) :: (780454800, 3600) :: (796179600, 7200) :: (811904400, 3600) ::
   (828234000, 7200) :: (846378000, 3600) :: (859683600, 7200) :: (877827600, 3600) ::
   (891133200, 7200) :: (909277200, 3600) :: (922582800, 7200) :: (941331600, 3600) ::
   (954032400, 7200) :: (972781200, 3600) :: (985482000, 7200) :: (1004230800, 3600) ::
   (1017536400, 7200) :: (1035680400, 3600) :: (1048986000, 7200) :: (1067130000, 3600) ::
   (1080435600, 7200) :: (1099184400, 3600) :: (1111885200, 7200) :: (1130634000, 3600) ::
   (1143334800, 7200) :: (1162083600, 3600) :: (1174784400, 7200) :: (1193533200, 3600) ::
   (1206838800, 7200) :: (1224982800, 3600) :: (1238288400, 7200) :: (1256432400, 3600) ::
   (1269738000, 7200) :: (1288486800, 3600) :: (1301187600, 7200) :: (1319936400, 3600) ::
   (1332637200, 7200) :: (1351386000, 3600) :: (1364691600, 7200) :: (1382835600, 3600) ::
   (1396141200, 7200) :: (1414285200, 3600) :: (1427590800, 7200) :: (1445734800, 3600) ::
   (1459040400, 7200) :: (1477789200, 3600) :: (1490490000, 7200) :: (1509238800, 3600) ::
   (1521939600, 7200) :: (1540688400, 3600) :: (1553994000, 7200) :: (1572138000, 3600) ::
   (1585443600, 7200) :: (1603587600, 3600) :: (1616893200, 7200) :: (1635642000, 3600) ::
   (1648342800, 7200) :: (1667091600, 3600) :: (1679792400, 7200) :: (1698541200, 3600) ::
   (1711846800, 7200) :: (1729990800, 3600) :: (1743296400, 7200) :: (1761440400, 3600) ::
   (1774746000, 7200) :: (1792890000, 3600) :: (1806195600, 7200) :: (1824944400, 3600) ::
   (1837645200, 7200) :: (1856394000, 3600) :: (1869094800, 7200) :: (1887843600, 3600) ::
   (1901149200, 7200) :: (1919293200, 3600) :: (1932598800, 7200) :: (1950742800, 3600) ::
   (1964048400, 7200) :: (1982797200, 3600) :: (1995498000, 7200) :: (2014246800, 3600) ::
   (2026947600, 7200) :: (2045696400, 3600) :: (2058397200, 7200) :: (2077146000, 3600) ::
   (2090451600, 7200) :: (2108595600, 3600) :: (2121901200, 7200) :: (2140045200, 3600) :: [])

/-- `timezone('Europe/Amsterdam')` (`exchange_calendar_xams.py` line 91). -/
def Zones.europeAmsterdam : Tz := .ofSeconds (1200)
  ((-1693700372, 4800) :: (-1680484772, 1200) :: (-1663453172, 4800) :: (-1650147572, 1200) ::
   (-1633213172, 4800) :: (-1617488372, 1200) :: (-1601158772, 4800) :: (-1586038772, 1200) ::
   (-1569709172, 4800) :: (-1554589172, 1200) :: (-1538259572, 4800) :: (-1523139572, 1200) ::
   (-1507501172, 4800) :: (-1490566772, 1200) :: (-1470176372, 4800) :: (-1459117172, 1200) ::
   (-1443997172, 4800) :: (-1427667572, 1200) :: (-1406672372, 4800) :: (-1396217972, 1200) ::
   (-1376950772, 4800) :: (-1364768372, 1200) :: (-1345414772, 4800) :: (-1333318772, 1200) ::
   (-1313792372, 4800) :: (-1301264372, 1200) :: (-1282256372, 4800) :: (-1269814772, 1200) ::
   (-1250720372, 4800) :: (-1238365172, 1200) :: (-1219184372, 4800) :: (-1206915572, 1200) ::
   (-1186957172, 4800) :: (-1175465972, 1200) :: (-1156025972, 4800) :: (-1143411572, 1200) ::
   (-1124489972, 4800) :: (-1111961972, 1200) :: (-1092953972, 4800) :: (-1080512372, 1200) ::
   (-1061331572, 4800) :: (-1049062772, 1200) :: (-1029190772, 4800) :: (-1025745572, 4800) ::
   (-1017613200, 1200) :: (-998259600, 4800) :: (-986163600, 1200) :: (-966723600, 4800) ::
   (-954109200, 1200) :: (-935022000, 7200) :: (-857257200, 3600) :: (-844556400, 7200) ::
   (-828226800, 3600) :: (-812502000, 7200) :: (-796777200, 3600) :: (-781052400, 7200) ::
   (-766623600, 3600) :: (228877200, 7200) :: (243997200, 3600) :: (260326800, 7200) ::
   (276051600, 3600) :: (291776400, 7200) :: (307501200, 3600) :: (323830800, 7200) ::
   (338950800, 3600) :: (354675600, 7200) :: (370400400, 3600) :: (386125200, 7200) ::
   (401850000, 3600) :: (417574800, 7200) :: (433299600, 3600) :: (449024400, 7200) ::
   (465354000, 3600) :: (481078800, 7200) :: (496803600, 3600) :: (512528400, 7200) ::
   (528253200, 3600) :: (543978000, 7200) :: (559702800, 3600) :: (575427600, 7200) ::
   (591152400, 3600) :: (606877200, 7200) :: (622602000, 3600) :: (638326800, 7200) ::
   (654656400, 3600) :: (670381200, 7200) :: (686106000, 3600) :: (701830800, 7200) ::
   (717555600, 3600) :: (733280400, 7200) :: (749005200, 3600) :: (764730000, 7200) ::
   (780454800, 3600) :: (796179600, 7200) :: (811904400, 3600) :: (828234000, 7200) ::
   (846378000, 3600) :: (859683600, 7200) :: (877827600, 3600) :: (891133200, 7200) ::
   (909277200, 3600) :: (922582800, 7200) :: (941331600, 3600) :: (954032400, 7200) ::
   (972781200, 3600) :: (985482000, 7200) :: (1004230800, 3600) :: (1017536400, 7200) ::
   (1035680400, 3600) :: (1048986000, 7200) :: (1067130000, 3600) :: (1080435600, 7200) ::
   (1099184400, 3600) :: (1111885200, 7200) :: (1130634000, 3600) :: (1143334800, 7200) ::
   (1162083600, 3600) :: (1174784400, 7200) :: (1193533200, 3600) :: (1206838800, 7200) ::
   (1224982800, 3600) :: (1238288400, 7200) :: (1256432400, 3600) :: (1269738000, 7200) ::
   (1288486800, 3600) :: (1301187600, 7200) :: (1319936400, 3600) :: (1332637200, 7200) ::
   (1351386000, 3600) :: (1364691600, 7200) :: (1382835600, 3600) :: (1396141200, 7200) ::
   (1414285200, 3600) :: (1427590800, 7200) :: (1445734800, 3600) :: (1459040400, 7200) ::
   (1477789200, 3600) :: (1490490000, 7200) :: (1509238800, 3600) :: (1521939600, 7200) ::
   (1540688400, 3600) :: (1553994000, 7200) :: (1572138000, 3600) :: (1585443600, 7200) ::
   (1603587600, 3600) :: (1616893200, 7200) :: (1635642000, 3600) :: (1648342800, 7200) ::
   (1667091600, 3600) :: (1679792400, 7200) :: (1698541200, 3600) :: (1711846800, 7200) ::
   (1729990800, 3600) :: (1743296400, 7200) :: (1761440400, 3600) :: (1774746000, 7200) ::
   (1792890000, 3600) :: (1806195600, 7200) :: (1824944400, 3600) :: (1837645200, 7200) ::
   (1856394000, 3600) :: (1869094800, 7200) :: (1887843600, 3600) :: (1901149200, 7200) ::
   (1919293200, 3600) :: (1932598800, 7200) :: (1950742800, 3600) :: (1964048400, 7200) ::
   (1982797200, 3600) :: (1995498000, 7200) :: (2014246800, 3600) :: (2026947600, 7200) ::
   (2045696400, 3600) :: (2058397200, 7200) :: (2077146000, 3600) :: (2090451600, 7200) ::
   (2108595600, 3600) :: (2121901200, 7200) :: (2140045200, 3600) :: [])

/-- `timezone('Europe/Athens')` (`exchange_calendar_asex.py` line 122). -/
def Zones.europeAthens : Tz := .ofSeconds (5700)
  ((-1686101632, 7200) :: (-1182996000, 10800) :: (-1178161200, 7200) :: (-906861600, 10800) ::
   (-904878000, 7200) :: (-857257200, 3600) :: (-844477200, 7200) :: (-828237600, 3600) ::
   (-812422800, 7200) :: (-552362400, 10800) :: (-541652400, 7200) :: (166485600, 10800) ::
   (186184800, 7200) :: (198028800, 10800) :: (213753600, 7200) :: (228873600, 10800) ::
   (244080000, 7200) :: (260323200, 10800) :: (275446800, 7200) :: (291798000, 10800) ::
   (307407600, 7200) :: (323388000, 10800) :: (338936400, 7200) :: (354675600, 10800) ::
   (370400400, 7200) :: (386125200, 10800) :: (401850000, 7200) :: (417574800, 10800) ::
   (433299600, 7200) :: (449024400, 10800) :: (465354000, 7200) :: (481078800, 10800) ::
   (496803600, 7200) :: (512528400, 10800) :: (528253200, 7200) :: (543978000, 10800) ::
   (559702800, 7200) :: (575427600, 10800) :: (591152400, 7200) :: (606877200, 10800) ::
   (622602000, 7200) :: (638326800, 10800) :: (654656400, 7200) :: (670381200, 10800) ::
   (686106000, 7200) :: (701830800, 10800) :: (717555600, 7200) :: (733280400, 10800) ::
   (749005200, 7200) :: (764730000, 10800) :: (780454800, 7200) :: (796179600, 10800) ::
   (811904400, 7200) :: (828234000, 10800) :: (846378000, 7200) :: (859683600, 10800) ::
   (877827600, 7200) :: (891133200, 10800) :: (909277200, 7200) :: (922582800, 10800) ::
   (941331600, 7200) :: (954032400, 10800) :: (972781200, 7200) :: (985482000, 10800) ::
   (1004230800, 7200) :: (1017536400, 10800) :: (1035680400, 7200) :: (1048986000, 10800) ::
   (1067130000, 7200) :: (1080435600, 10800) :: (1099184400, 7200) :: (1111885200, 10800) ::
   (1130634000, 7200) :: (1143334800, 10800) :: (1162083600, 7200) :: (1174784400, 10800) ::
   (1193533200, 7200) :: (1206838800, 10800) :: (1224982800, 7200) :: (1238288400, 10800) ::
   (1256432400, 7200) :: (1269738000, 10800) :: (1288486800, 7200) :: (1301187600, 10800) ::
   (1319936400, 7200) :: (1332637200, 10800) :: (1351386000, 7200) :: (1364691600, 10800) ::
   (1382835600, 7200) :: (1396141200, 10800) :: (1414285200, 7200) :: (1427590800, 10800) ::
   (1445734800, 7200) :: (1459040400, 10800) :: (1477789200, 7200) :: (1490490000, 10800) ::
   (1509238800, 7200) :: (1521939600, 10800) :: (1540688400, 7200) :: (1553994000, 10800) ::
   (1572138000, 7200) :: (1585443600, 10800) :: (1603587600, 7200) :: (1616893200, 10800) ::
   (1635642000, 7200) :: (1648342800, 10800) :: (1667091600, 7200) :: (1679792400, 10800) ::
   (1698541200, 7200) :: (1711846800, 10800) :: (1729990800, 7200) :: (1743296400, 10800) ::
   (1761440400, 7200) :: (1774746000, 10800) :: (1792890000, 7200) :: (1806195600, 10800) ::
   (1824944400, 7200) :: (1837645200, 10800) :: (1856394000, 7200) :: (1869094800, 10800) ::
   (1887843600, 7200) :: (1901149200, 10800) :: (1919293200, 7200) :: (1932598800, 10800) ::
   (1950742800, 7200) :: (1964048400, 10800) :: (1982797200, 7200) :: (1995498000, 10800) ::
   (2014246800, 7200) :: (2026947600, 10800) :: (2045696400, 7200) :: (2058397200, 10800) ::
   (2077146000, 7200) :: (2090451600, 10800) :: (2108595600, 7200) :: (2121901200, 10800) ::
   (2140045200, 7200) :: [])

/-- `timezone('Europe/Brussels')` (`exchange_calendar_xbru.py` line 91). -/
def Zones.europeBrussels : Tz := .ofSeconds (1080)
  ((-2147483648, 0) :: (-1740355200, 3600) :: (-1693702800, 7200) :: (-1680483600, 3600) ::
   (-1663455600, 7200) :: (-1650150000, 3600) :: (-1632006000, 7200) :: (-1618700400, 3600) ::
   (-1613826000, 0) :: (-1604278800, 3600) :: (-1585530000, 0) :: (-1574038800, 3600) ::
   (-1552266000, 0) :: (-1539997200, 3600) :: (-1520557200, 0) :: (-1507510800, 3600) ::
   (-1490576400, 0) :: (-1473642000, 3600) :: (-1459126800, 0) :: (-1444006800, 3600) ::
   (-1427677200, 0) :: (-1411952400, 3600) :: (-1396227600, 0) :: (-1379293200, 3600) ::
   (-1364778000, 0) :: (-1348448400, 3600) :: (-1333328400, 0) :: (-1316394000, 3600) ::
   (-1301263200, 0) :: (-1284328800, 3600) :: (-1269813600, 0) :: (-1253484000, 3600) ::
   (-1238364000, 0) :: (-1221429600, 3600) :: (-1206914400, 0) :: (-1191189600, 3600) ::
   (-1175464800, 0) :: (-1160344800, 3600) :: (-1143410400, 0) :: (-1127685600, 3600) ::
   (-1111960800, 0) :: (-1096840800, 3600) :: (-1080511200, 0) :: (-1063576800, 3600) ::
   (-1049061600, 0) :: (-1033336800, 3600) :: (-1017612000, 0) :: (-1002492000, 3600) ::
   (-986162400, 0) :: (-969228000, 3600) :: (-950479200, 0) :: (-942012000, 3600) ::
   (-934668000, 7200) :: (-857257200, 3600) :: (-844556400, 7200) :: (-828226800, 3600) ::
   (-812502000, 7200) :: (-798073200, 3600) :: (-781052400, 7200) :: (-766623600, 3600) ::
   (-745455600, 7200) :: (-733273200, 3600) :: (228877200, 7200) :: (243997200, 3600) ::
   (260326800, 7200) :: (276051600, 3600) :: (291776400, 7200) :: (307501200, 3600) ::
   (323830800, 7200) :: (338950800, 3600) :: (354675600, 7200) :: (370400400, 3600) ::
   (386125200, 7200) :: (401850000, 3600) :: (417574800, 7200) :: (433299600, 3600) ::
   (449024400, 7200) :: (465354000, 3600) :: (481078800, 7200) :: (496803600, 3600) ::
   (512528400, 7200) :: (528253200, 3600) :: (543978000, 7200) :: (559702800, 3600) ::
   (575427600, 7200) :: (591152400, 3600) :: (606877200, 7200) :: (622602000, 3600) ::
   (638326800, 7200) :: (654656400, 3600) :: (670381200, 7200) :: (686106000, 3600) ::
   (701830800, 7200) :: (717555600, 3600) :: (733280400, 7200) :: (749005200, 3600) ::
   (764730000, 7200) :: (780454800, 3600) :: (796179600, 7200) :: (811904400, 3600) ::
   (828234000, 7200) :: (846378000, 3600) :: (859683600, 7200) :: (877827600, 3600) ::
   (891133200, 7200) :: (909277200, 3600) :: (922582800, 7200) :: (941331600, 3600) ::
   (954032400, 7200) :: (972781200, 3600) :: (985482000, 7200) :: (1004230800, 3600) ::
   (1017536400, 7200) :: (1035680400, 3600) :: (1048986000, 7200) :: (1067130000, 3600) ::
   (1080435600, 7200) :: (1099184400, 3600) :: (1111885200, 7200) :: (1130634000, 3600) ::
   (1143334800, 7200) :: (1162083600, 3600) :: (1174784400, 7200) :: (1193533200, 3600) ::
   (1206838800, 7200) :: (1224982800, 3600) :: (1238288400, 7200) :: (1256432400, 3600) ::
   (1269738000, 7200) :: (1288486800, 3600) :: (1301187600, 7200) :: (1319936400, 3600) ::
   (1332637200, 7200) :: (1351386000, 3600) :: (1364691600, 7200) :: (1382835600, 3600) ::
   (1396141200, 7200) :: (1414285200, 3600) :: (1427590800, 7200) :: (1445734800, 3600) ::
   (1459040400, 7200) :: (1477789200, 3600) :: (1490490000, 7200) :: (1509238800, 3600) ::
   (1521939600, 7200) :: (1540688400, 3600) :: (1553994000, 7200) :: (1572138000, 3600) ::
   (1585443600, 7200) :: (1603587600, 3600) :: (1616893200, 7200) :: (1635642000, 3600) ::
   (1648342800, 7200) :: (1667091600, 3600) :: (1679792400, 7200) :: (1698541200, 3600) ::
   (1711846800, 7200) :: (1729990800, 3600) :: (1743296400, 7200) :: (1761440400, 3600) ::
   (1774746000, 7200) :: (1792890000, 3600) :: (1806195600, 7200) :: (1824944400, 3600) ::
   (1837645200, 7200) :: (1856394000, 3600) :: (1869094800, 7200) :: (1887843600, 3600) ::
   (1901149200, 7200) :: (1919293200, 3600) :: (1932598800, 7200) :: (1950742800, 3600) ::
   (1964048400, 7200) :: (1982797200, 3600) :: (1995498000, 7200) :: (2014246800, 3600) ::
   (2026947600, 7200) :: (2045696400, 3600) :: (2058397200, 7200) :: (2077146000, 3600) ::
   (2090451600, 7200) :: (2108595600, 3600) :: (2121901200, 7200) :: (2140045200, 3600) :: [])

/-- `timezone('Europe/Budapest')` (`exchange_calendar_xbud.py` line 150). -/
def Zones.europeBudapest : Tz := .ofSeconds (4560)
  ((-2147483648, 3600) :: (-1693706400, 7200) :: (-1680483600, 3600) :: (-1663455600, 7200) ::
   (-1650150000, 3600) :: (-1632006000, 7200) :: (-1618700400, 3600) :: (-1600470000, 7200) ::
   (-1587250800, 3600) :: (-1569711600, 7200) :: (-1555196400, 3600) :: (-906775200, 7200) ::
   (-857257200, 3600) :: (-844556400, 7200) :: (-828226800, 3600) :: (-812502000, 7200) ::
   (-796777200, 3600) :: (-778471200, 7200) :: (-762656400, 3600) :: (-749689200, 7200) ::
   (-733276800, 3600) :: (-717634800, 7200) :: (-701910000, 3600) :: (-686185200, 7200) ::
   (-670460400, 3600) :: (-654130800, 7200) :: (-639010800, 3600) :: (-492656400, 7200) ::
   (-481168800, 3600) :: (-461199600, 7200) :: (-449708400, 3600) :: (-428540400, 7200) ::
   (-418258800, 3600) :: (-397090800, 7200) :: (-386809200, 3600) :: (323823600, 7200) ::
   (338943600, 3600) :: (354668400, 7200) :: (370393200, 3600) :: (386118000, 7200) ::
   (401842800, 3600) :: (417567600, 7200) :: (433292400, 3600) :: (449024400, 7200) ::
   (465354000, 3600) :: (481078800, 7200) :: (496803600, 3600) :: (512528400, 7200) ::
   (528253200, 3600) :: (543978000, 7200) :: (559702800, 3600) :: (575427600, 7200) ::
   (591152400, 3600) :: (606877200, 7200) :: (622602000, 3600) :: (638326800, 7200) ::
   (654656400, 3600) :: (670381200, 7200) :: (686106000, 3600) :: (701830800, 7200) ::
   (717555600, 3600) :: (733280400, 7200) :: (749005200, 3600) :: (764730000, 7200) ::
   (780454800, 3600) :: (796179600, 7200) :: (811904400, 3600) :: (828234000, 7200) ::
   (846378000, 3600) :: (859683600, 7200) :: (877827600, 3600) :: (891133200, 7200) ::
   (909277200, 3600) :: (922582800, 7200) :: (941331600, 3600) :: (954032400, 7200) ::
   (972781200, 3600) :: (985482000, 7200) :: (1004230800, 3600) :: (1017536400, 7200) ::
   (1035680400, 3600) :: (1048986000, 7200) :: (1067130000, 3600) :: (1080435600, 7200) ::
   (1099184400, 3600) :: (1111885200, 7200) :: (1130634000, 3600) :: (1143334800, 7200) ::
   (1162083600, 3600) :: (1174784400, 7200) :: (1193533200, 3600) :: (1206838800, 7200) ::
   (1224982800, 3600) :: (1238288400, 7200) :: (1256432400, 3600) :: (1269738000, 7200) ::
   (1288486800, 3600) :: (1301187600, 7200) :: (1319936400, 3600) :: (1332637200, 7200) ::
   (1351386000, 3600) :: (1364691600, 7200) :: (1382835600, 3600) :: (1396141200, 7200) ::
   (1414285200, 3600) :: (1427590800, 7200) :: (1445734800, 3600) :: (1459040400, 7200) ::
   (1477789200, 3600) :: (1490490000, 7200) :: (1509238800, 3600) :: (1521939600, 7200) ::
   (1540688400, 3600) :: (1553994000, 7200) :: (1572138000, 3600) :: (1585443600, 7200) ::
   (1603587600, 3600) :: (1616893200, 7200) :: (1635642000, 3600) :: (1648342800, 7200) ::
   (1667091600, 3600) :: (1679792400, 7200) :: (1698541200, 3600) :: (1711846800, 7200) ::
   (1729990800, 3600) :: (1743296400, 7200) :: (1761440400, 3600) :: (1774746000, 7200) ::
   (1792890000, 3600) :: (1806195600, 7200) :: (1824944400, 3600) :: (1837645200, 7200) ::
   (1856394000, 3600) :: (1869094800, 7200) :: (1887843600, 3600) :: (1901149200, 7200) ::
   (1919293200, 3600) :: (1932598800, 7200) :: (1950742800, 3600) :: (1964048400, 7200) ::
   (1982797200, 3600) :: (1995498000, 7200) :: (2014246800, 3600) :: (2026947600, 7200) ::
   (2045696400, 3600) :: (2058397200, 7200) :: (2077146000, 3600) :: (2090451600, 7200) ::
   (2108595600, 3600) :: (2121901200, 7200) :: (2140045200, 3600) :: [])

/-- `timezone('Europe/Copenhagen')` (`exchange_calendar_xcse.py` line 93). -/
def Zones.europeCopenhagen : Tz := .ofSeconds (3000)
  ((-2147483648, 3600) :: (-1692496800, 7200) :: (-1680490800, 3600) :: (-935110800, 7200) ::
   (-857257200, 3600) :: (-844556400, 7200) :: (-828226800, 3600) :: (-812502000, 7200) ::
   (-796777200, 3600) :: (-781052400, 7200) :: (-769388400, 3600) :: (-747010800, 7200) ::
   (-736383600, 3600) :: (-715215600, 7200) :: (-706748400, 3600) :: (-683161200, 7200) ::
   (-675298800, 3600) :: (323830800, 7200) :: (338950800, 3600) :: (354675600, 7200) ::
   (370400400, 3600) :: (386125200, 7200) :: (401850000, 3600) :: (417574800, 7200) ::
   (433299600, 3600) :: (449024400, 7200) :: (465354000, 3600) :: (481078800, 7200) ::
   (496803600, 3600) :: (512528400, 7200) :: (528253200, 3600) :: (543978000, 7200) ::
   (559702800, 3600) :: (575427600, 7200) :: (591152400, 3600) :: (606877200, 7200) ::
   (622602000, 3600) :: (638326800, 7200) :: (654656400, 3600) :: (670381200, 7200) ::
   (686106000, 3600) :: (701830800, 7200) :: (717555600, 3600) :: (733280400, 7200) ::
   (749005200, 3600) :: (764730000, 7200) :: (780454800, 3600) :: (796179600, 7200) ::
   (811904400, 3600) :: (828234000, 7200) :: (846378000, 3600) :: (859683600, 7200) ::
   (877827600, 3600) :: (891133200, 7200) :: (909277200, 3600) :: (922582800, 7200) ::
   (941331600, 3600) :: (954032400, 7200) :: (972781200, 3600) :: (985482000, 7200) ::
   (1004230800, 3600) :: (1017536400, 7200) :: (1035680400, 3600) :: (1048986000, 7200) ::
   (1067130000, 3600) :: (1080435600, 7200) :: (1099184400, 3600) :: (1111885200, 7200) ::
   (1130634000, 3600) :: (1143334800, 7200) :: (1162083600, 3600) :: (1174784400, 7200) ::
   (1193533200, 3600) :: (1206838800, 7200) :: (1224982800, 3600) :: (1238288400, 7200) ::
   (1256432400, 3600) :: (1269738000, 7200) :: (1288486800, 3600) :: (1301187600, 7200) ::
   (1319936400, 3600) :: (1332637200, 7200) :: (1351386000, 3600) :: (1364691600, 7200) ::
   (1382835600, 3600) :: (1396141200, 7200) :: (1414285200, 3600) :: (1427590800, 7200) ::
   (1445734800, 3600) :: (1459040400, 7200) :: (1477789200, 3600) :: (1490490000, 7200) ::
   (1509238800, 3600) :: (1521939600, 7200) :: (1540688400, 3600) :: (1553994000, 7200) ::
   (1572138000, 3600) :: (1585443600, 7200) :: (1603587600, 3600) :: (1616893200, 7200) ::
   (1635642000, 3600) :: (1648342800, 7200) :: (1667091600, 3600) :: (1679792400, 7200) ::
   (1698541200, 3600) :: (1711846800, 7200) :: (1729990800, 3600) :: (1743296400, 7200) ::
   (1761440400, 3600) :: (1774746000, 7200) :: (1792890000, 3600) :: (1806195600, 7200) ::
   (1824944400, 3600) :: (1837645200, 7200) :: (1856394000, 3600) :: (1869094800, 7200) ::
   (1887843600, 3600) :: (1901149200, 7200) :: (1919293200, 3600) :: (1932598800, 7200) ::
   (1950742800, 3600) :: (1964048400, 7200) :: (1982797200, 3600) :: (1995498000, 7200) ::
   (2014246800, 3600) :: (2026947600, 7200) :: (2045696400, 3600) :: (2058397200, 7200) ::
   (2077146000, 3600) :: (2090451600, 7200) :: (2108595600, 3600) :: (2121901200, 7200) ::
   (2140045200, 3600) :: [])

/-- `timezone('Europe/Dublin')` (`exchange_calendar_xdub.py` line 129). -/
def Zones.europeDublin : Tz := .ofSeconds (-1500)
  ((-1691962479, 2100) :: (-1680471279, 0) :: (-1664143200, 3600) :: (-1650146400, 0) ::
   (-1633903200, 3600) :: (-1617487200, 0) :: (-1601848800, 3600) :: (-1586037600, 0) ::
   (-1570399200, 3600) :: (-1552168800, 0) :: (-1538344800, 3600) :: (-1522533600, 0) ::
   (-1507500000, 3600) :: (-1490565600, 0) :: (-1473631200, 3600) :: (-1460930400, 0) ::
   (-1442786400, 3600) :: (-1428876000, 0) :: (-1410732000, 3600) :: (-1396216800, 0) ::
   (-1379282400, 3600) :: (-1364767200, 0) :: (-1348437600, 3600) :: (-1333317600, 0) ::
   (-1315778400, 3600) :: (-1301263200, 0) :: (-1284328800, 3600) :: (-1269813600, 0) ::
   (-1253484000, 3600) :: (-1238364000, 0) :: (-1221429600, 3600) :: (-1206914400, 0) ::
   (-1189980000, 3600) :: (-1175464800, 0) :: (-1159135200, 3600) :: (-1143410400, 0) ::
   (-1126476000, 3600) :: (-1111960800, 0) :: (-1095631200, 3600) :: (-1080511200, 0) ::
   (-1063576800, 3600) :: (-1049061600, 0) :: (-1032127200, 3600) :: (-1017612000, 0) ::
   (-1001282400, 3600) :: (-986162400, 0) :: (-969228000, 3600) :: (-950479200, 0) ::
   (-942012000, 3600) :: (-733356000, 0) :: (-719445600, 3600) :: (-699487200, 0) ::
   (-684972000, 3600) :: (-668037600, 0) :: (-654732000, 3600) :: (-636588000, 0) ::
   (-622072800, 3600) :: (-605743200, 0) :: (-590623200, 3600) :: (-574293600, 0) ::
   (-558568800, 3600) :: (-542239200, 0) :: (-527119200, 3600) :: (-512604000, 0) ::
   (-496274400, 3600) :: (-481154400, 0) :: (-464220000, 3600) :: (-449704800, 0) ::
   (-432165600, 3600) :: (-417650400, 0) :: (-401320800, 3600) :: (-386200800, 0) ::
   (-369266400, 3600) :: (-354751200, 0) :: (-337816800, 3600) :: (-323301600, 0) ::
   (-306972000, 3600) :: (-291852000, 0) :: (-276732000, 3600) :: (-257983200, 0) ::
   (-245282400, 3600) :: (-226533600, 0) :: (-213228000, 3600) :: (-195084000, 0) ::
   (-182383200, 3600) :: (-163634400, 0) :: (-150933600, 3600) :: (-132184800, 0) ::
   (-119484000, 3600) :: (-100735200, 0) :: (-88034400, 3600) :: (-68680800, 0) ::
   (-59004000, 3600) :: (-37242000, 3600) :: (57722400, 0) :: (69818400, 3600) ::
   (89172000, 0) :: (101268000, 3600) :: (120621600, 0) :: (132717600, 3600) :: (152071200, 0) ::
   (164167200, 3600) :: (183520800, 0) :: (196221600, 3600) :: (214970400, 0) ::
   (227671200, 3600) :: (246420000, 0) :: (259120800, 3600) :: (278474400, 0) ::
   (290570400, 3600) :: (309924000, 0) :: (322020000, 3600) :: (341373600, 0) ::
   (354675600, 3600) :: (372819600, 0) :: (386125200, 3600) :: (404269200, 0) ::
   (417574800, 3600) :: (435718800, 0) :: (449024400, 3600) :: (467773200, 0) ::
   (481078800, 3600) :: (499222800, 0) :: (512528400, 3600) :: (530672400, 0) ::
   (543978000, 3600) :: (562122000, 0) :: (575427600, 3600) :: (593571600, 0) ::
   (606877200, 3600) :: (625626000, 0) :: (638326800, 3600) :: (657075600, 0) ::
   (670381200, 3600) :: (688525200, 0) :: (701830800, 3600) :: (719974800, 0) ::
   (733280400, 3600) :: (751424400, 0) :: (764730000, 3600) :: (782874000, 0) ::
   (796179600, 3600) :: (814323600, 0) :: (828234000, 3600) :: (846378000, 0) ::
   (859683600, 3600) :: (877827600, 0) :: (891133200, 3600) :: (909277200, 0) ::
   (922582800, 3600) :: (941331600, 0) :: (954032400, 3600) :: (972781200, 0) ::
   (985482000, 3600) :: (1004230800, 0) :: (1017536400, 3600) :: (1035680400, 0) ::
   (1048986000, 3600) :: (1067130000, 0) :: (1080435600, 3600) :: (1099184400, 0) ::
   (1111885200, 3600) :: (1130634000, 0) :: (1143334800, 3600) :: (1162083600, 0) ::
   (1174784400, 3600) :: (1193533200, 0) :: (1206838800, 3600) :: (1224982800, 0) ::
   (1238288400, 3600) :: (1256432400, 0) :: (1269738000, 3600) :: (1288486800, 0) ::
   (1301187600, 3600) :: (1319936400, 0) :: (1332637200, 3600) :: (1351386000, 0) ::
   (1364691600, 3600) :: (1382835600, 0) :: (1396141200, 3600) :: (1414285200, 0) ::
   (1427590800, 3600) :: (1445734800, 0) :: (1459040400, 3600) :: (1477789200, 0) ::
   (1490490000, 3600) :: (1509238800, 0) :: (1521939600, 3600) :: (1540688400, 0) ::
   (1553994000, 3600) :: (1572138000, 0) :: (1585443600, 3600) :: (1603587600, 0) ::
   (1616893200, 3600) :: (1635642000, 0) :: (1648342800, 3600) :: (1667091600, 0) ::
   (1679792400, 3600) :: (1698541200, 0) :: (1711846800, 3600) :: (1729990800, 0) ::
   (1743296400, 3600) :: (1761440400, 0) :: (1774746000, 3600) :: (1792890000, 0) ::
   (1806195600, 3600) :: (1824944400, 0) :: (1837645200, 3600) :: (1856394000, 0) ::
   (1869094800, 3600) :: (1887843600, 0) :: (1901149200, 3600) :: (1919293200, 0) ::
   (1932598800, 3600) :: (1950742800, 0) :: (1964048400, 3600) :: (1982797200, 0) ::
   (1995498000, 3600) :: (2014246800, 0) :: (2026947600, 3600) :: (2045696400, 0) ::
   (2058397200, 3600) :: (2077146000, 0) :: (2090451600, 3600) :: (2108595600, 0) ::
   (2121901200, 3600) :: (2140045200, 0) :: [])

/-- `timezone('Europe/Helsinki')` (`exchange_calendar_xhel.py` line 78). -/
def Zones.europeHelsinki : Tz := .ofSeconds (6000)
  ((-1535938789, 7200) :: (-875671200, 10800) :: (-859773600, 7200) :: (354672000, 10800) ::
   (370396800, 7200) :: (386121600, 10800) :: (401846400, 7200) :: (417574800, 10800) ::
   (433299600, 7200) :: (449024400, 10800) :: (465354000, 7200) :: (481078800, 10800) ::
   (496803600, 7200) :: (512528400, 10800) :: (528253200, 7200) :: (543978000, 10800) ::
   (559702800, 7200) :: (575427600, 10800) :: (591152400, 7200) :: (606877200, 10800) ::
   (622602000, 7200) :: (638326800, 10800) :: (654656400, 7200) :: (670381200, 10800) ::
   (686106000, 7200) :: (701830800, 10800) :: (717555600, 7200) :: (733280400, 10800) ::
   (749005200, 7200) :: (764730000, 10800) :: (780454800, 7200) :: (796179600, 10800) ::
   (811904400, 7200) :: (828234000, 10800) :: (846378000, 7200) :: (859683600, 10800) ::
   (877827600, 7200) :: (891133200, 10800) :: (909277200, 7200) :: (922582800, 10800) ::
   (941331600, 7200) :: (954032400, 10800) :: (972781200, 7200) :: (985482000, 10800) ::
   (1004230800, 7200) :: (1017536400, 10800) :: (1035680400, 7200) :: (1048986000, 10800) ::
   (1067130000, 7200) :: (1080435600, 10800) :: (1099184400, 7200) :: (1111885200, 10800) ::
   (1130634000, 7200) :: (1143334800, 10800) :: (1162083600, 7200) :: (1174784400, 10800) ::
   (1193533200, 7200) :: (1206838800, 10800) :: (1224982800, 7200) :: (1238288400, 10800) ::
   (1256432400, 7200) :: (1269738000, 10800) :: (1288486800, 7200) :: (1301187600, 10800) ::
   (1319936400, 7200) :: (1332637200, 10800) :: (1351386000, 7200) :: (1364691600, 10800) ::
   (1382835600, 7200) :: (1396141200, 10800) :: (1414285200, 7200) :: (1427590800, 10800) ::
   (1445734800, 7200) :: (1459040400, 10800) :: (1477789200, 7200) :: (1490490000, 10800) ::
   (1509238800, 7200) :: (1521939600, 10800) :: (1540688400, 7200) :: (1553994000, 10800) ::
   (1572138000, 7200) :: (1585443600, 10800) :: (1603587600, 7200) :: (1616893200, 10800) ::
   (1635642000, 7200) :: (1648342800, 10800) :: (1667091600, 7200) :: (1679792400, 10800) ::
   (1698541200, 7200) :: (1711846800, 10800) :: (1729990800, 7200) :: (1743296400, 10800) ::
   (1761440400, 7200) :: (1774746000, 10800) :: (1792890000, 7200) :: (1806195600, 10800) ::
   (1824944400, 7200) :: (1837645200, 10800) :: (1856394000, 7200) :: (1869094800, 10800) ::
   (1887843600, 7200) :: (1901149200, 10800) :: (1919293200, 7200) :: (1932598800, 10800) ::
   (1950742800, 7200) :: (1964048400, 10800) :: (1982797200, 7200) :: (1995498000, 10800) ::
   (2014246800, 7200) :: (2026947600, 10800) :: (2045696400, 7200) :: (2058397200, 10800) ::
   (2077146000, 7200) :: (2090451600, 10800) :: (2108595600, 7200) :: (2121901200, 10800) ::
   (2140045200, 7200) :: [])

/-- `timezone('Europe/Istanbul')` (`exchange_calendar_xist.py` line 131). -/
def Zones.europeIstanbul : Tz := .ofSeconds (6960)
  ((-2147483648, 7020) :: (-1869875816, 7200) :: (-1693706400, 10800) :: (-1680490800, 7200) ::
   (-1570413600, 10800) :: (-1552186800, 7200) :: (-1538359200, 10800) :: (-1522551600, 7200) ::
   (-1507514400, 10800) :: (-1490583600, 7200) :: (-1440208800, 10800) :: (-1428030000, 7200) ::
   (-1409709600, 10800) :: (-1396494000, 7200) :: (-931053600, 10800) :: (-922676400, 7200) ::
   (-917834400, 10800) :: (-892436400, 7200) :: (-875844000, 10800) :: (-764737200, 7200) ::
   (-744343200, 10800) :: (-733806000, 7200) :: (-716436000, 10800) :: (-701924400, 7200) ::
   (-684986400, 10800) :: (-670474800, 7200) :: (-654141600, 10800) :: (-639025200, 7200) ::
   (-622087200, 10800) :: (-606970800, 7200) :: (-590032800, 10800) :: (-575521200, 7200) ::
   (-235620000, 10800) :: (-194842800, 7200) :: (-177732000, 10800) :: (-165726000, 7200) ::
   (107910000, 10800) :: (121215600, 7200) :: (133920000, 10800) :: (152665200, 7200) ::
   (164678400, 10800) :: (184114800, 7200) :: (196214400, 10800) :: (215564400, 7200) ::
   (228873600, 10800) :: (245804400, 7200) :: (260323200, 10800) :: (267915600, 10800) ::
   (428454000, 14400) :: (433893600, 10800) :: (468111600, 7200) :: (482799600, 10800) ::
   (496710000, 7200) :: (512521200, 10800) :: (528246000, 7200) :: (543970800, 10800) ::
   (559695600, 7200) :: (575420400, 10800) :: (591145200, 7200) :: (606870000, 10800) ::
   (622594800, 7200) :: (638319600, 10800) :: (654649200, 7200) :: (670374000, 10800) ::
   (686098800, 7200) :: (701823600, 10800) :: (717548400, 7200) :: (733273200, 10800) ::
   (748998000, 7200) :: (764118000, 10800) :: (780447600, 7200) :: (796172400, 10800) ::
   (811897200, 7200) :: (828226800, 10800) :: (846370800, 7200) :: (859676400, 10800) ::
   (877820400, 7200) :: (891126000, 10800) :: (909270000, 7200) :: (922575600, 10800) ::
   (941324400, 7200) :: (954025200, 10800) :: (972774000, 7200) :: (985474800, 10800) ::
   (1004223600, 7200) :: (1017529200, 10800) :: (1035673200, 7200) :: (1048978800, 10800) ::
   (1067122800, 7200) :: (1080428400, 10800) :: (1099177200, 7200) :: (1111878000, 10800) ::
   (1130626800, 7200) :: (1143327600, 10800) :: (1162076400, 7200) :: (1174784400, 10800) ::
   (1193533200, 7200) :: (1206838800, 10800) :: (1224982800, 7200) :: (1238288400, 10800) ::
   (1256432400, 7200) :: (1269738000, 10800) :: (1288486800, 7200) :: (1301274000, 10800) ::
   (1319936400, 7200) :: (1332637200, 10800) :: (1351386000, 7200) :: (1364691600, 10800) ::
   (1382835600, 7200) :: (1396227600, 10800) :: (1414285200, 7200) :: (1427590800, 10800) ::
   (1446944400, 7200) :: (1459040400, 10800) :: (1473195600, 10800) :: (2147483647, 10800) :: [])

/-- `timezone('Europe/Lisbon')` (`exchange_calendar_xlis.py` line 132). -/
def Zones.europeLisbon : Tz := .ofSeconds (-2220)
  ((-1830384000, 0) :: (-1689555600, 3600) :: (-1677801600, 0) :: (-1667433600, 3600) ::
   (-1647738000, 0) :: (-1635897600, 3600) :: (-1616202000, 0) :: (-1604361600, 3600) ::
   (-1584666000, 0) :: (-1572739200, 3600) :: (-1553043600, 0) :: (-1541203200, 3600) ::
   (-1521507600, 0) :: (-1442451600, 3600) :: (-1427677200, 0) :: (-1379293200, 3600) ::
   (-1364778000, 0) :: (-1348448400, 3600) :: (-1333328400, 0) :: (-1316394000, 3600) ::
   (-1301274000, 0) :: (-1284339600, 3600) :: (-1269824400, 0) :: (-1221440400, 3600) ::
   (-1206925200, 0) :: (-1191200400, 3600) :: (-1175475600, 0) :: (-1127696400, 3600) ::
   (-1111971600, 0) :: (-1096851600, 3600) :: (-1080522000, 0) :: (-1063587600, 3600) ::
   (-1049072400, 0) :: (-1033347600, 3600) :: (-1017622800, 0) :: (-1002502800, 3600) ::
   (-986173200, 0) :: (-969238800, 3600) :: (-950490000, 0) :: (-942022800, 3600) ::
   (-922496400, 0) :: (-906944400, 3600) :: (-891133200, 0) :: (-877309200, 3600) ::
   (-873684000, 7200) :: (-864007200, 3600) :: (-857955600, 0) :: (-845859600, 3600) ::
   (-842839200, 7200) :: (-831348000, 3600) :: (-825901200, 0) :: (-814410000, 3600) ::
   (-810784800, 7200) :: (-799898400, 3600) :: (-794451600, 0) :: (-782960400, 3600) ::
   (-779335200, 7200) :: (-768448800, 3600) :: (-763002000, 0) :: (-749091600, 3600) ::
   (-733366800, 0) :: (-717631200, 3600) :: (-701906400, 0) :: (-686181600, 3600) ::
   (-670456800, 0) :: (-654732000, 3600) :: (-639007200, 0) :: (-623282400, 3600) ::
   (-607557600, 0) :: (-591832800, 3600) :: (-575503200, 0) :: (-559778400, 3600) ::
   (-544053600, 0) :: (-528328800, 3600) :: (-512604000, 0) :: (-496879200, 3600) ::
   (-481154400, 0) :: (-465429600, 3600) :: (-449704800, 0) :: (-433980000, 3600) ::
   (-417650400, 0) :: (-401925600, 3600) :: (-386200800, 0) :: (-370476000, 3600) ::
   (-354751200, 0) :: (-339026400, 3600) :: (-323301600, 0) :: (-307576800, 3600) ::
   (-291852000, 0) :: (-276127200, 3600) :: (-260402400, 0) :: (-244677600, 3600) ::
   (-228348000, 0) :: (-212623200, 3600) :: (-196898400, 0) :: (-181173600, 3600) ::
   (-165448800, 0) :: (-149724000, 3600) :: (-133999200, 0) :: (-118274400, 3600) ::
   (-102549600, 3600) :: (212544000, 0) :: (228268800, 3600) :: (243993600, 0) ::
   (260326800, 3600) :: (276051600, 0) :: (291776400, 3600) :: (307501200, 0) ::
   (323830800, 3600) :: (338950800, 0) :: (354672000, 3600) :: (370396800, 0) ::
   (386121600, 3600) :: (401846400, 0) :: (417571200, 3600) :: (433296000, 0) ::
   (449020800, 3600) :: (465350400, 0) :: (481075200, 3600) :: (496800000, 0) ::
   (512528400, 3600) :: (528253200, 0) :: (543978000, 3600) :: (559702800, 0) ::
   (575427600, 3600) :: (591152400, 0) :: (606877200, 3600) :: (622602000, 0) ::
   (638326800, 3600) :: (654656400, 0) :: (670381200, 3600) :: (686106000, 0) ::
   (701830800, 3600) :: (717555600, 3600) :: (733280400, 7200) :: (749005200, 3600) ::
   (764730000, 7200) :: (780454800, 3600) :: (796179600, 7200) :: (811904400, 3600) ::
   (828234000, 3600) :: (846378000, 0) :: (859683600, 3600) :: (877827600, 0) ::
   (891133200, 3600) :: (909277200, 0) :: (922582800, 3600) :: (941331600, 0) ::
   (954032400, 3600) :: (972781200, 0) :: (985482000, 3600) :: (1004230800, 0) ::
   (1017536400, 3600) :: (1035680400, 0) :: (1048986000, 3600) :: (1067130000, 0) ::
   (1080435600, 3600) :: (1099184400, 0) :: (1111885200, 3600) :: (1130634000, 0) ::
   (1143334800, 3600) :: (1162083600, 0) :: (1174784400, 3600) :: (1193533200, 0) ::
   (1206838800, 3600) :: (1224982800, 0) :: (1238288400, 3600) :: (1256432400, 0) ::
   (1269738000, 3600) :: (1288486800, 0) :: (1301187600, 3600) :: (1319936400, 0) ::
   (1332637200, 3600) :: (1351386000, 0) :: (1364691600, 3600) :: (1382835600, 0) ::
   (1396141200, 3600) :: (1414285200, 0) :: (1427590800, 3600) :: (1445734800, 0) ::
   (1459040400, 3600) :: (1477789200, 0) :: (1490490000, 3600) :: (1509238800, 0) ::
   (1521939600, 3600) :: (1540688400, 0) :: (1553994000, 3600) :: (1572138000, 0) ::
   (1585443600, 3600) :: (1603587600, 0) :: (1616893200, 3600) :: (1635642000, 0) ::
   (1648342800, 3600) :: (1667091600, 0) :: (1679792400, 3600) :: (1698541200, 0) ::
   (1711846800, 3600) :: (1729990800, 0) :: (1743296400, 3600) :: (1761440400, 0) ::
   (1774746000, 3600) :: (1792890000, 0) :: (1806195600, 3600) :: (1824944400, 0) ::
   (1837645200, 3600) :: (1856394000, 0) :: (1869094800, 3600) :: (1887843600, 0) ::
   (1901149200, 3600) :: (1919293200, 0) :: (1932598800, 3600) :: (1950742800, 0) ::
   (1964048400, 3600) :: (1982797200, 0) :: (1995498000, 3600) :: (2014246800, 0) ::
   (2026947600, 3600) :: (2045696400, 0) :: (2058397200, 3600) :: (2077146000, 0) ::
   (2090451600, 3600) :: (2108595600, 0) :: (2121901200, 3600) :: (2140045200, 0) :: [])

/-- `timezone('Europe/London')` (`exchange_calendar_xlon.py` line 182). -/
def Zones.europeLondon : Tz := .ofSeconds (-60)
  ((-2147483648, 0) :: (-1691964000, 3600) :: (-1680472800, 0) :: (-1664143200, 3600) ::
   (-1650146400, 0) :: (-1633903200, 3600) :: (-1617487200, 0) :: (-1601848800, 3600) ::
   (-1586037600, 0) :: (-1570399200, 3600) :: (-1552168800, 0) :: (-1538344800, 3600) ::
   (-1522533600, 0) :: (-1507500000, 3600) :: (-1490565600, 0) :: (-1473631200, 3600) ::
   (-1460930400, 0) :: (-1442786400, 3600) :: (-1428876000, 0) :: (-1410732000, 3600) ::
   (-1396216800, 0) :: (-1379282400, 3600) :: (-1364767200, 0) :: (-1348437600, 3600) ::
   (-1333317600, 0) :: (-1315778400, 3600) :: (-1301263200, 0) :: (-1284328800, 3600) ::
   (-1269813600, 0) :: (-1253484000, 3600) :: (-1238364000, 0) :: (-1221429600, 3600) ::
   (-1206914400, 0) :: (-1189980000, 3600) :: (-1175464800, 0) :: (-1159135200, 3600) ::
   (-1143410400, 0) :: (-1126476000, 3600) :: (-1111960800, 0) :: (-1095631200, 3600) ::
   (-1080511200, 0) :: (-1063576800, 3600) :: (-1049061600, 0) :: (-1032127200, 3600) ::
   (-1017612000, 0) :: (-1001282400, 3600) :: (-986162400, 0) :: (-969228000, 3600) ::
   (-950479200, 0) :: (-942012000, 3600) :: (-904518000, 7200) :: (-896050800, 3600) ::
   (-875487600, 7200) :: (-864601200, 3600) :: (-844038000, 7200) :: (-832546800, 3600) ::
   (-812588400, 7200) :: (-798073200, 3600) :: (-781052400, 7200) :: (-772066800, 3600) ::
   (-764805600, 0) :: (-748476000, 3600) :: (-733356000, 0) :: (-719445600, 3600) ::
   (-717030000, 7200) :: (-706748400, 3600) :: (-699487200, 0) :: (-687996000, 3600) ::
   (-668037600, 0) :: (-654732000, 3600) :: (-636588000, 0) :: (-622072800, 3600) ::
   (-605743200, 0) :: (-590623200, 3600) :: (-574293600, 0) :: (-558568800, 3600) ::
   (-542239200, 0) :: (-527119200, 3600) :: (-512604000, 0) :: (-496274400, 3600) ::
   (-481154400, 0) :: (-464220000, 3600) :: (-449704800, 0) :: (-432165600, 3600) ::
   (-417650400, 0) :: (-401320800, 3600) :: (-386200800, 0) :: (-369266400, 3600) ::
   (-354751200, 0) :: (-337816800, 3600) :: (-323301600, 0) :: (-306972000, 3600) ::
   (-291852000, 0) :: (-276732000, 3600) :: (-257983200, 0) :: (-245282400, 3600) ::
   (-226533600, 0) :: (-213228000, 3600) :: (-195084000, 0) :: (-182383200, 3600) ::
   (-163634400, 0) :: (-150933600, 3600) :: (-132184800, 0) :: (-119484000, 3600) ::
   (-100735200, 0) :: (-88034400, 3600) :: (-68680800, 0) :: (-59004000, 3600) ::
   (-37242000, 3600) :: (57722400, 0) :: (69818400, 3600) :: (89172000, 0) ::
   (101268000, 3600) :: (120621600, 0) :: (132717600, 3600) :: (152071200, 0) ::
   (164167200, 3600) :: (183520800, 0) :: (196221600, 3600) :: (214970400, 0) ::
   (227671200, 3600) :: (246420000, 0) :: (259120800, 3600) :: (278474400, 0) ::
   (290570400, 3600) :: (309924000, 0) :: (322020000, 3600) :: (341373600, 0) ::
   (354675600, 3600) :: (372819600, 0) :: (386125200, 3600) :: (404269200, 0) ::
   (417574800, 3600) :: (435718800, 0) :: (449024400, 3600) :: (467773200, 0) ::
   (481078800, 3600) :: (499222800, 0) :: (512528400, 3600) :: (530672400, 0) ::
   (543978000, 3600) :: (562122000, 0) :: (575427600, 3600) :: (593571600, 0) ::
   (606877200, 3600) :: (625626000, 0) :: (638326800, 3600) :: (657075600, 0) ::
   (670381200, 3600) :: (688525200, 0) :: (701830800, 3600) :: (719974800, 0) ::
   (733280400, 3600) :: (751424400, 0) :: (764730000, 3600) :: (782874000, 0) ::
   (796179600, 3600) :: (814323600, 0) :: (828234000, 3600) :: (846378000, 0) ::
   (859683600, 3600) :: (877827600, 0) :: (891133200, 3600) :: (909277200, 0) ::
   (922582800, 3600) :: (941331600, 0) :: (954032400, 3600) :: (972781200, 0) ::
   (985482000, 3600) :: (1004230800, 0) :: (1017536400, 3600) :: (1035680400, 0) ::
   (1048986000, 3600) :: (1067130000, 0) :: (1080435600, 3600) :: (1099184400, 0) ::
   (1111885200, 3600) :: (1130634000, 0) :: (1143334800, 3600) :: (1162083600, 0) ::
   (1174784400, 3600) :: (1193533200, 0) :: (1206838800, 3600) :: (1224982800, 0) ::
   (1238288400, 3600) :: (1256432400, 0) :: (1269738000, 3600) :: (1288486800, 0) ::
   (1301187600, 3600) :: (1319936400, 0) :: (1332637200, 3600) :: (1351386000, 0) ::
   (1364691600, 3600) :: (1382835600, 0) :: (1396141200, 3600) :: (1414285200, 0) ::
   (1427590800, 3600) :: (1445734800, 0) :: (1459040400, 3600) :: (1477789200, 0) ::
   (1490490000, 3600) :: (1509238800, 0) :: (1521939600, 3600) :: (1540688400, 0) ::
   (1553994000, 3600) :: (1572138000, 0) :: (1585443600, 3600) :: (1603587600, 0) ::
   (1616893200, 3600) :: (1635642000, 0) :: (1648342800, 3600) :: (1667091600, 0) ::
   (1679792400, 3600) :: (1698541200, 0) :: (1711846800, 3600) :: (1729990800, 0) ::
   (1743296400, 3600) :: (1761440400, 0) :: (1774746000, 3600) :: (1792890000, 0) ::
   (1806195600, 3600) :: (1824944400, 0) :: (1837645200, 3600) :: (1856394000, 0) ::
   (1869094800, 3600) :: (1887843600, 0) :: (1901149200, 3600) :: (1919293200, 0) ::
   (1932598800, 3600) :: (1950742800, 0) :: (1964048400, 3600) :: (1982797200, 0) ::
   (1995498000, 3600) :: (2014246800, 0) :: (2026947600, 3600) :: (2045696400, 0) ::
   (2058397200, 3600) :: (2077146000, 0) :: (2090451600, 3600) :: (2108595600, 0) ::
   (2121901200, 3600) :: (2140045200, 0) :: [])

/-- `timezone('Europe/Madrid')` (`exchange_calendar_xmad.py` line 118). -/
def Zones.europeMadrid : Tz := .ofSeconds (-900)
  ((-2147483648, 0) :: (-1631926800, 3600) :: (-1616889600, 0) :: (-1601168400, 3600) ::
   (-1585353600, 0) :: (-1442451600, 3600) :: (-1427673600, 0) :: (-1379293200, 3600) ::
   (-1364774400, 0) :: (-1348448400, 3600) :: (-1333324800, 0) :: (-1316390400, 3600) ::
   (-1301270400, 0) :: (-1284339600, 3600) :: (-1269820800, 0) :: (-1026954000, 3600) ::
   (-1017619200, 0) :: (-1001898000, 3600) :: (-999482400, 7200) :: (-986090400, 3600) ::
   (-954115200, 0) :: (-940208400, 3600) :: (-873079200, 7200) :: (-862621200, 3600) ::
   (-842839200, 7200) :: (-828320400, 3600) :: (-811389600, 7200) :: (-796870800, 3600) ::
   (-779940000, 7200) :: (-765421200, 3600) :: (-748490400, 7200) :: (-733971600, 3600) ::
   (-652327200, 7200) :: (-639018000, 3600) :: (135122400, 7200) :: (150246000, 3600) ::
   (166572000, 7200) :: (181695600, 3600) :: (196812000, 7200) :: (212540400, 3600) ::
   (228866400, 7200) :: (243990000, 3600) :: (260326800, 7200) :: (276051600, 3600) ::
   (291776400, 7200) :: (307501200, 3600) :: (323830800, 7200) :: (338950800, 3600) ::
   (354675600, 7200) :: (370400400, 3600) :: (386125200, 7200) :: (401850000, 3600) ::
   (417574800, 7200) :: (433299600, 3600) :: (449024400, 7200) :: (465354000, 3600) ::
   (481078800, 7200) :: (496803600, 3600) :: (512528400, 7200) :: (528253200, 3600) ::
   (543978000, 7200) :: (559702800, 3600) :: (575427600, 7200) :: (591152400, 3600) ::
   (606877200, 7200) :: (622602000, 3600) :: (638326800, 7200) :: (654656400, 3600) ::
   (670381200, 7200) :: (686106000, 3600) :: (701830800, 7200) :: (717555600, 3600) ::
   (733280400, 7200) :: (749005200, 3600) :: (764730000, 7200) :: (780454800, 3600) ::
   (796179600, 7200) :: (811904400, 3600) :: (828234000, 7200) :: (846378000, 3600) ::
   (859683600, 7200) :: (877827600, 3600) :: (891133200, 7200) :: (909277200, 3600) ::
   (922582800, 7200) :: (941331600, 3600) :: (954032400, 7200) :: (972781200, 3600) ::
   (985482000, 7200) :: (1004230800, 3600) :: (1017536400, 7200) :: (1035680400, 3600) ::
   (1048986000, 7200) :: (1067130000, 3600) :: (1080435600, 7200) :: (1099184400, 3600) ::
   (1111885200, 7200) :: (1130634000, 3600) :: (1143334800, 7200) :: (1162083600, 3600) ::
   (1174784400, 7200) :: (1193533200, 3600) :: (1206838800, 7200) :: (1224982800, 3600) ::
   (1238288400, 7200) :: (1256432400, 3600) :: (1269738000, 7200) :: (1288486800, 3600) ::
   (1301187600, 7200) :: (1319936400, 3600) :: (1332637200, 7200) :: (1351386000, 3600) ::
   (1364691600, 7200) :: (1382835600, 3600) :: (1396141200, 7200) :: (1414285200, 3600) ::
   (1427590800, 7200) :: (1445734800, 3600) :: (1459040400, 7200) :: (1477789200, 3600) ::
   (1490490000, 7200) :: (1509238800, 3600) :: (1521939600, 7200) :: (1540688400, 3600) ::
   (1553994000, 7200) :: (1572138000, 3600) :: (1585443600, 7200) :: (1603587600, 3600) ::
   (1616893200, 7200) :: (1635642000, 3600) :: (1648342800, 7200) :: (1667091600, 3600) ::
   (1679792400, 7200) :: (1698541200, 3600) :: (1711846800, 7200) :: (1729990800, 3600) ::
   (1743296400, 7200) :: (1761440400, 3600) :: (1774746000, 7200) :: (1792890000, 3600) ::
   (1806195600, 7200) :: (1824944400, 3600) :: (1837645200, 7200) :: (1856394000, 3600) ::
   (1869094800, 7200) :: (1887843600, 3600) :: (1901149200, 7200) :: (1919293200, 3600) ::
   (1932598800, 7200) :: (1950742800, 3600) :: (1964048400, 7200) :: (1982797200, 3600) ::
   (1995498000, 7200) :: (2014246800, 3600) :: (2026947600, 7200) :: (2045696400, 3600) ::
   (2058397200, 7200) :: (2077146000, 3600) :: (2090451600, 7200) :: (2108595600, 3600) ::
   (2121901200, 7200) :: (2140045200, 3600) :: [])

/-- `timezone('Europe/Moscow')` (`exchange_calendar_xmos.py` line 266). -/
def Zones.europeMoscow : Tz := .ofSeconds (9000)
  ((-1688265017, 9060) :: (-1656819079, 12660) :: (-1641353479, 9060) :: (-1627965079, 16260) ::
   (-1618716679, 12660) :: (-1596429079, 16260) :: (-1593820800, 14400) ::
   (-1589860800, 10800) :: (-1542427200, 14400) :: (-1539493200, 18000) ::
   (-1525323600, 14400) :: (-1522728000, 10800) :: (-1491188400, 7200) :: (-1247536800, 10800) ::
   (354920400, 14400) :: (370728000, 10800) :: (386456400, 14400) :: (402264000, 10800) ::
   (417992400, 14400) :: (433800000, 10800) :: (449614800, 14400) :: (465346800, 10800) ::
   (481071600, 14400) :: (496796400, 10800) :: (512521200, 14400) :: (528246000, 10800) ::
   (543970800, 14400) :: (559695600, 10800) :: (575420400, 14400) :: (591145200, 10800) ::
   (606870000, 14400) :: (622594800, 10800) :: (638319600, 14400) :: (654649200, 10800) ::
   (670374000, 10800) :: (686102400, 7200) :: (695779200, 10800) :: (701823600, 14400) ::
   (717548400, 10800) :: (733273200, 14400) :: (748998000, 10800) :: (764722800, 14400) ::
   (780447600, 10800) :: (796172400, 14400) :: (811897200, 10800) :: (828226800, 14400) ::
   (846370800, 10800) :: (859676400, 14400) :: (877820400, 10800) :: (891126000, 14400) ::
   (909270000, 10800) :: (922575600, 14400) :: (941324400, 10800) :: (954025200, 14400) ::
   (972774000, 10800) :: (985474800, 14400) :: (1004223600, 10800) :: (1017529200, 14400) ::
   (1035673200, 10800) :: (1048978800, 14400) :: (1067122800, 10800) :: (1080428400, 14400) ::
   (1099177200, 10800) :: (1111878000, 14400) :: (1130626800, 10800) :: (1143327600, 14400) ::
   (1162076400, 10800) :: (1174777200, 14400) :: (1193526000, 10800) :: (1206831600, 14400) ::
   (1224975600, 10800) :: (1238281200, 14400) :: (1256425200, 10800) :: (1269730800, 14400) ::
   (1288479600, 10800) :: (1301180400, 14400) :: (1414274400, 10800) :: [])

/-- `timezone('Europe/Oslo')` (`exchange_calendar_xosl.py` line 78). -/
def Zones.europeOslo : Tz := .ofSeconds (2580)
  ((-2147483648, 3600) :: (-1691884800, 7200) :: (-1680573600, 3600) :: (-927511200, 7200) ::
   (-857257200, 3600) :: (-844556400, 7200) :: (-828226800, 3600) :: (-812502000, 7200) ::
   (-796777200, 3600) :: (-781052400, 7200) :: (-765327600, 3600) :: (-340844400, 7200) ::
   (-324514800, 3600) :: (-308790000, 7200) :: (-293065200, 3600) :: (-277340400, 7200) ::
   (-261615600, 3600) :: (-245890800, 7200) :: (-230166000, 3600) :: (-214441200, 7200) ::
   (-198716400, 3600) :: (-182991600, 7200) :: (-166662000, 3600) :: (-147913200, 7200) ::
   (-135212400, 3600) :: (323830800, 7200) :: (338950800, 3600) :: (354675600, 7200) ::
   (370400400, 3600) :: (386125200, 7200) :: (401850000, 3600) :: (417574800, 7200) ::
   (433299600, 3600) :: (449024400, 7200) :: (465354000, 3600) :: (481078800, 7200) ::
   (496803600, 3600) :: (512528400, 7200) :: (528253200, 3600) :: (543978000, 7200) ::
   (559702800, 3600) :: (575427600, 7200) :: (591152400, 3600) :: (606877200, 7200) ::
   (622602000, 3600) :: (638326800, 7200) :: (654656400, 3600) :: (670381200, 7200) ::
   (686106000, 3600) :: (701830800, 7200) :: (717555600, 3600) :: (733280400, 7200) ::
   (749005200, 3600) :: (764730000, 7200) :: (780454800, 3600) :: (796179600, 7200) ::
   (811904400, 3600) :: (828234000, 7200) :: (846378000, 3600) :: (859683600, 7200) ::
   (877827600, 3600) :: (891133200, 7200) :: (909277200, 3600) :: (922582800, 7200) ::
   (941331600, 3600) :: (954032400, 7200) :: (972781200, 3600) :: (985482000, 7200) ::
   (1004230800, 3600) :: (1017536400, 7200) :: (1035680400, 3600) :: (1048986000, 7200) ::
   (1067130000, 3600) :: (1080435600, 7200) :: (1099184400, 3600) :: (1111885200, 7200) ::
   (1130634000, 3600) :: (1143334800, 7200) :: (1162083600, 3600) :: (1174784400, 7200) ::
   (1193533200, 3600) :: (1206838800, 7200) :: (1224982800, 3600) :: (1238288400, 7200) ::
   (1256432400, 3600) :: (1269738000, 7200) :: (1288486800, 3600) :: (1301187600, 7200) ::
   (1319936400, 3600) :: (1332637200, 7200) :: (1351386000, 3600) :: (1364691600, 7200) ::
   (1382835600, 3600) :: (1396141200, 7200) :: (1414285200, 3600) :: (1427590800, 7200) ::
   (1445734800, 3600) :: (1459040400, 7200) :: (1477789200, 3600) :: (1490490000, 7200) ::
   (1509238800, 3600) :: (1521939600, 7200) :: (1540688400, 3600) :: (1553994000, 7200) ::
   (1572138000, 3600) :: (1585443600, 7200) :: (1603587600, 3600) :: (1616893200, 7200) ::
   (1635642000, 3600) :: (1648342800, 7200) :: (1667091600, 3600) :: (1679792400, 7200) ::
   (1698541200, 3600) :: (1711846800, 7200) :: (1729990800, 3600) :: (1743296400, 7200) ::
   (1761440400, 3600) :: (1774746000, 7200) :: (1792890000, 3600) :: (1806195600, 7200) ::
   (1824944400, 3600) :: (1837645200, 7200) :: (1856394000, 3600) :: (1869094800, 7200) ::
   (1887843600, 3600) :: (1901149200, 7200) :: (1919293200, 3600) :: (1932598800, 7200) ::
   (1950742800, 3600) :: (1964048400, 7200) :: (1982797200, 3600) :: (1995498000, 7200) ::
   (2014246800, 3600) :: (2026947600, 7200) :: (2045696400, 3600) :: (2058397200, 7200) ::
   (2077146000, 3600) :: (2090451600, 7200) :: (2108595600, 3600) :: (2121901200, 7200) ::
   (2140045200, 3600) :: [])

/-- `timezone('Europe/Paris')` (`exchange_calendar_xpar.py` line 89). -/
def Zones.europeParis : Tz := .ofSeconds (540)
  ((-1855958961, 0) :: (-1689814800, 3600) :: (-1680397200, 0) :: (-1665363600, 3600) ::
   (-1648342800, 0) :: (-1635123600, 3600) :: (-1616893200, 0) :: (-1604278800, 3600) ::
   (-1585443600, 0) :: (-1574038800, 3600) :: (-1552266000, 0) :: (-1539997200, 3600) ::
   (-1520557200, 0) :: (-1507510800, 3600) :: (-1490576400, 0) :: (-1470618000, 3600) ::
   (-1459126800, 0) :: (-1444006800, 3600) :: (-1427677200, 0) :: (-1411952400, 3600) ::
   (-1396227600, 0) :: (-1379293200, 3600) :: (-1364778000, 0) :: (-1348448400, 3600) ::
   (-1333328400, 0) :: (-1316394000, 3600) :: (-1301274000, 0) :: (-1284339600, 3600) ::
   (-1269824400, 0) :: (-1253494800, 3600) :: (-1238374800, 0) :: (-1221440400, 3600) ::
   (-1206925200, 0) :: (-1191200400, 3600) :: (-1175475600, 0) :: (-1160355600, 3600) ::
   (-1143421200, 0) :: (-1127696400, 3600) :: (-1111971600, 0) :: (-1096851600, 3600) ::
   (-1080522000, 0) :: (-1063587600, 3600) :: (-1049072400, 0) :: (-1033347600, 3600) ::
   (-1017622800, 0) :: (-1002502800, 3600) :: (-986173200, 0) :: (-969238800, 3600) ::
   (-950490000, 0) :: (-942012000, 3600) :: (-932436000, 7200) :: (-857257200, 3600) ::
   (-844556400, 7200) :: (-828226800, 3600) :: (-812502000, 7200) :: (-800071200, 7200) ::
   (-796266000, 3600) :: (-781052400, 7200) :: (-766623600, 3600) :: (196819200, 7200) ::
   (212540400, 3600) :: (228877200, 7200) :: (243997200, 3600) :: (260326800, 7200) ::
   (276051600, 3600) :: (291776400, 7200) :: (307501200, 3600) :: (323830800, 7200) ::
   (338950800, 3600) :: (354675600, 7200) :: (370400400, 3600) :: (386125200, 7200) ::
   (401850000, 3600) :: (417574800, 7200) :: (433299600, 3600) :: (449024400, 7200) ::
   (465354000, 3600) :: (481078800, 7200) :: (496803600, 3600) :: (512528400, 7200) ::
   (528253200, 3600) :: (543978000, 7200) :: (559702800, 3600) :: (575427600, 7200) ::
   (591152400, 3600) :: (606877200, 7200) :: (622602000, 3600) :: (638326800, 7200) ::
   (654656400, 3600) :: (670381200, 7200) :: (686106000, 3600) :: (701830800, 7200) ::
   (717555600, 3600) :: (733280400, 7200) :: (749005200, 3600) :: (764730000, 7200) ::
   (780454800, 3600) :: (796179600, 7200) :: (811904400, 3600) :: (828234000, 7200) ::
   (846378000, 3600) :: (859683600, 7200) :: (877827600, 3600) :: (891133200, 7200) ::
   (909277200, 3600) :: (922582800, 7200) :: (941331600, 3600) :: (954032400, 7200) ::
   (972781200, 3600) :: (985482000, 7200) :: (1004230800, 3600) :: (1017536400, 7200) ::
   (1035680400, 3600) :: (1048986000, 7200) :: (1067130000, 3600) :: (1080435600, 7200) ::
   (1099184400, 3600) :: (1111885200, 7200) :: (1130634000, 3600) :: (1143334800, 7200) ::
   (1162083600, 3600) :: (1174784400, 7200) :: (1193533200, 3600) :: (1206838800, 7200) ::
   (1224982800, 3600) :: (1238288400, 7200) :: (1256432400, 3600) :: (1269738000, 7200) ::
   (1288486800, 3600) :: (1301187600, 7200) :: (1319936400, 3600) :: (1332637200, 7200) ::
   (1351386000, 3600) :: (1364691600, 7200) :: (1382835600, 3600) :: (1396141200, 7200) ::
   (1414285200, 3600) :: (1427590800, 7200) :: (1445734800, 3600) :: (1459040400, 7200) ::
   (1477789200, 3600) :: (1490490000, 7200) :: (1509238800, 3600) :: (1521939600, 7200) ::
   (1540688400, 3600) :: (1553994000, 7200) :: (1572138000, 3600) :: (1585443600, 7200) ::
   (1603587600, 3600) :: (1616893200, 7200) :: (1635642000, 3600) :: (1648342800, 7200) ::
   (1667091600, 3600) :: (1679792400, 7200) :: (1698541200, 3600) :: (1711846800, 7200) ::
   (1729990800, 3600) :: (1743296400, 7200) :: (1761440400, 3600) :: (1774746000, 7200) ::
   (1792890000, 3600) :: (1806195600, 7200) :: (1824944400, 3600) :: (1837645200, 7200) ::
   (1856394000, 3600) :: (1869094800, 7200) :: (1887843600, 3600) :: (1901149200, 7200) ::
   (1919293200, 3600) :: (1932598800, 7200) :: (1950742800, 3600) :: (1964048400, 7200) ::
   (1982797200, 3600) :: (1995498000, 7200) :: (2014246800, 3600) :: (2026947600, 7200) ::
   (2045696400, 3600) :: (2058397200, 7200) :: (2077146000, 3600) :: (2090451600, 7200) ::
   (2108595600, 3600) :: (2121901200, 7200) :: (2140045200, 3600) :: [])

/-- `timezone('Europe/Prague')` (`exchange_calendar_xpra.py` line 129). -/
def Zones.europePrague : Tz := .ofSeconds (3480)
  ((-2147483648, 3600) :: (-1693706400, 7200) :: (-1680483600, 3600) :: (-1663455600, 7200) ::
   (-1650150000, 3600) :: (-1632006000, 7200) :: (-1618700400, 3600) :: (-938905200, 7200) ::
   (-857257200, 3600) :: (-844556400, 7200) :: (-828226800, 3600) :: (-812502000, 7200) ::
   (-796777200, 3600) :: (-781052400, 7200) :: (-765327600, 3600) :: (-746578800, 7200) ::
   (-733359600, 3600) :: (-728517600, 0) :: (-721260000, 3600) :: (-716425200, 7200) ::
   (-701910000, 3600) :: (-684975600, 7200) :: (-670460400, 3600) :: (-654217200, 7200) ::
   (-639010800, 3600) :: (291776400, 7200) :: (307501200, 3600) :: (323830800, 7200) ::
   (338950800, 3600) :: (354675600, 7200) :: (370400400, 3600) :: (386125200, 7200) ::
   (401850000, 3600) :: (417574800, 7200) :: (433299600, 3600) :: (449024400, 7200) ::
   (465354000, 3600) :: (481078800, 7200) :: (496803600, 3600) :: (512528400, 7200) ::
   (528253200, 3600) :: (543978000, 7200) :: (559702800, 3600) :: (575427600, 7200) ::
   (591152400, 3600) :: (606877200, 7200) :: (622602000, 3600) :: (638326800, 7200) ::
   (654656400, 3600) :: (670381200, 7200) :: (686106000, 3600) :: (701830800, 7200) ::
   (717555600, 3600) :: (733280400, 7200) :: (749005200, 3600) :: (764730000, 7200) ::
   (780454800, 3600) :: (796179600, 7200) :: (811904400, 3600) :: (828234000, 7200) ::
   (846378000, 3600) :: (859683600, 7200) :: (877827600, 3600) :: (891133200, 7200) ::
   (909277200, 3600) :: (922582800, 7200) :: (941331600, 3600) :: (954032400, 7200) ::
   (972781200, 3600) :: (985482000, 7200) :: (1004230800, 3600) :: (1017536400, 7200) ::
   (1035680400, 3600) :: (1048986000, 7200) :: (1067130000, 3600) :: (1080435600, 7200) ::
   (1099184400, 3600) :: (1111885200, 7200) :: (1130634000, 3600) :: (1143334800, 7200) ::
   (1162083600, 3600) :: (1174784400, 7200) :: (1193533200, 3600) :: (1206838800, 7200) ::
   (1224982800, 3600) :: (1238288400, 7200) :: (1256432400, 3600) :: (1269738000, 7200) ::
   (1288486800, 3600) :: (1301187600, 7200) :: (1319936400, 3600) :: (1332637200, 7200) ::
   (1351386000, 3600) :: (1364691600, 7200) :: (1382835600, 3600) :: (1396141200, 7200) ::
   (1414285200, 3600) :: (1427590800, 7200) :: (1445734800, 3600) :: (1459040400, 7200) ::
   (1477789200, 3600) :: (1490490000, 7200) :: (1509238800, 3600) :: (1521939600, 7200) ::
   (1540688400, 3600) :: (1553994000, 7200) :: (1572138000, 3600) :: (1585443600, 7200) ::
   (1603587600, 3600) :: (1616893200, 7200) :: (1635642000, 3600) :: (1648342800, 7200) ::
   (1667091600, 3600) :: (1679792400, 7200) :: (1698541200, 3600) :: (1711846800, 7200) ::
   (1729990800, 3600) :: (1743296400, 7200) :: (1761440400, 3600) :: (1774746000, 7200) ::
   (1792890000, 3600) :: (1806195600, 7200) :: (1824944400, 3600) :: (1837645200, 7200) ::
   (1856394000, 3600) :: (1869094800, 7200) :: (1887843600, 3600) :: (1901149200, 7200) ::
   (1919293200, 3600) :: (1932598800, 7200) :: (1950742800, 3600) :: (1964048400, 7200) ::
   (1982797200, 3600) :: (1995498000, 7200) :: (2014246800, 3600) :: (2026947600, 7200) ::
   (2045696400, 3600) :: (2058397200, 7200) :: (2077146000, 3600) :: (2090451600, 7200) ::
   (2108595600, 3600) :: (2121901200, 7200) :: (2140045200, 3600) :: [])

/-- `timezone('Europe/Rome')` (`exchange_calendar_xmil.py` line 68). -/
def Zones.europeRome : Tz := .ofSeconds (3000)
  ((-2147483648, 3600) :: (-1690765200, 7200) :: (-1680487200, 3600) :: (-1664758800, 7200) ::
   (-1648951200, 3600) :: (-1635123600, 7200) :: (-1616896800, 3600) :: (-1604278800, 7200) ::
   (-1585533600, 3600) :: (-1571014800, 7200) :: (-1555293600, 3600) :: (-932432400, 7200) ::
   (-857257200, 3600) :: (-844556400, 7200) :: (-828226800, 3600) :: (-812502000, 7200) ::
   (-798073200, 3600) :: (-781052400, 7200) :: (-766717200, 3600) :: (-750898800, 7200) ::
   (-733359600, 3600) :: (-719456400, 7200) :: (-701917200, 3600) :: (-689209200, 7200) ::
   (-670460400, 3600) :: (-114051600, 7200) :: (-103168800, 3600) :: (-81997200, 7200) ::
   (-71715600, 3600) :: (-50547600, 7200) :: (-40266000, 3600) :: (-18493200, 7200) ::
   (-8211600, 3600) :: (12956400, 7200) :: (23238000, 3600) :: (43801200, 7200) ::
   (54687600, 3600) :: (75855600, 7200) :: (86742000, 3600) :: (107910000, 7200) ::
   (118191600, 3600) :: (138754800, 7200) :: (149641200, 3600) :: (170809200, 7200) ::
   (181090800, 3600) :: (202258800, 7200) :: (212540400, 3600) :: (233103600, 7200) ::
   (243990000, 3600) :: (265158000, 7200) :: (276044400, 3600) :: (296607600, 7200) ::
   (307494000, 3600) :: (323830800, 7200) :: (338950800, 3600) :: (354675600, 7200) ::
   (370400400, 3600) :: (386125200, 7200) :: (401850000, 3600) :: (417574800, 7200) ::
   (433299600, 3600) :: (449024400, 7200) :: (465354000, 3600) :: (481078800, 7200) ::
   (496803600, 3600) :: (512528400, 7200) :: (528253200, 3600) :: (543978000, 7200) ::
   (559702800, 3600) :: (575427600, 7200) :: (591152400, 3600) :: (606877200, 7200) ::
   (622602000, 3600) :: (638326800, 7200) :: (654656400, 3600) :: (670381200, 7200) ::
   (686106000, 3600) :: (701830800, 7200) :: (717555600, 3600) :: (733280400, 7200) ::
   (749005200, 3600) :: (764730000, 7200) :: (780454800, 3600) :: (796179600, 7200) ::
   (811904400, 3600) :: (828234000, 7200) :: (846378000, 3600) :: (859683600, 7200) ::
   (877827600, 3600) :: (891133200, 7200) :: (909277200, 3600) :: (922582800, 7200) ::
   (941331600, 3600) :: (954032400, 7200) :: (972781200, 3600) :: (985482000, 7200) ::
   (1004230800, 3600) :: (1017536400, 7200) :: (1035680400, 3600) :: (1048986000, 7200) ::
   (1067130000, 3600) :: (1080435600, 7200) :: (1099184400, 3600) :: (1111885200, 7200) ::
   (1130634000, 3600) :: (1143334800, 7200) :: (1162083600, 3600) :: (1174784400, 7200) ::
   (1193533200, 3600) :: (1206838800, 7200) :: (1224982800, 3600) :: (1238288400, 7200) ::
   (1256432400, 3600) :: (1269738000, 7200) :: (1288486800, 3600) :: (1301187600, 7200) ::
   (1319936400, 3600) :: (1332637200, 7200) :: (1351386000, 3600) :: (1364691600, 7200) ::
   (1382835600, 3600) :: (1396141200, 7200) :: (1414285200, 3600) :: (1427590800, 7200) ::
   (1445734800, 3600) :: (1459040400, 7200) :: (1477789200, 3600) :: (1490490000, 7200) ::
   (1509238800, 3600) :: (1521939600, 7200) :: (1540688400, 3600) :: (1553994000, 7200) ::
   (1572138000, 3600) :: (1585443600, 7200) :: (1603587600, 3600) :: (1616893200, 7200) ::
   (1635642000, 3600) :: (1648342800, 7200) :: (1667091600, 3600) :: (1679792400, 7200) ::
   (1698541200, 3600) :: (1711846800, 7200) :: (1729990800, 3600) :: (1743296400, 7200) ::
   (1761440400, 3600) :: (1774746000, 7200) :: (1792890000, 3600) :: (1806195600, 7200) ::
   (1824944400, 3600) :: (1837645200, 7200) :: (1856394000, 3600) :: (1869094800, 7200) ::
   (1887843600, 3600) :: (1901149200, 7200) :: (1919293200, 3600) :: (1932598800, 7200) ::
   (1950742800, 3600) :: (1964048400, 7200) :: (1982797200, 3600) :: (1995498000, 7200) ::
   (2014246800, 3600) :: (2026947600, 7200) :: (2045696400, 3600) :: (2058397200, 7200) ::
   (2077146000, 3600) :: (2090451600, 7200) :: (2108595600, 3600) :: (2121901200, 7200) ::
   (2140045200, 3600) :: [])

/-- `timezone('Europe/Stockholm')` (`exchange_calendar_xsto.py` line 123). -/
def Zones.europeStockholm : Tz := .ofSeconds (4320)
  ((-2147483648, 3600) :: (-1692496800, 7200) :: (-1680483600, 3600) :: (323830800, 7200) ::
   (338950800, 3600) :: (354675600, 7200) :: (370400400, 3600) :: (386125200, 7200) ::
   (401850000, 3600) :: (417574800, 7200) :: (433299600, 3600) :: (449024400, 7200) ::
   (465354000, 3600) :: (481078800, 7200) :: (496803600, 3600) :: (512528400, 7200) ::
   (528253200, 3600) :: (543978000, 7200) :: (559702800, 3600) :: (575427600, 7200) ::
   (591152400, 3600) :: (606877200, 7200) :: (622602000, 3600) :: (638326800, 7200) ::
   (654656400, 3600) :: (670381200, 7200) :: (686106000, 3600) :: (701830800, 7200) ::
   (717555600, 3600) :: (733280400, 7200) :: (749005200, 3600) :: (764730000, 7200) ::
   (780454800, 3600) :: (796179600, 7200) :: (811904400, 3600) :: (828234000, 7200) ::
   (846378000, 3600) :: (859683600, 7200) :: (877827600, 3600) :: (891133200, 7200) ::
   (909277200, 3600) :: (922582800, 7200) :: (941331600, 3600) :: (954032400, 7200) ::
   (972781200, 3600) :: (985482000, 7200) :: (1004230800, 3600) :: (1017536400, 7200) ::
   (1035680400, 3600) :: (1048986000, 7200) :: (1067130000, 3600) :: (1080435600, 7200) ::
   (1099184400, 3600) :: (1111885200, 7200) :: (1130634000, 3600) :: (1143334800, 7200) ::
   (1162083600, 3600) :: (1174784400, 7200) :: (1193533200, 3600) :: (1206838800, 7200) ::
   (1224982800, 3600) :: (1238288400, 7200) :: (1256432400, 3600) :: (1269738000, 7200) ::
   (1288486800, 3600) :: (1301187600, 7200) :: (1319936400, 3600) :: (1332637200, 7200) ::
   (1351386000, 3600) :: (1364691600, 7200) :: (1382835600, 3600) :: (1396141200, 7200) ::
   (1414285200, 3600) :: (1427590800, 7200) :: (1445734800, 3600) :: (1459040400, 7200) ::
   (1477789200, 3600) :: (1490490000, 7200) :: (1509238800, 3600) :: (1521939600, 7200) ::
   (1540688400, 3600) :: (1553994000, 7200) :: (1572138000, 3600) :: (1585443600, 7200) ::
   (1603587600, 3600) :: (1616893200, 7200) :: (1635642000, 3600) :: (1648342800, 7200) ::
   (1667091600, 3600) :: (1679792400, 7200) :: (1698541200, 3600) :: (1711846800, 7200) ::
   (1729990800, 3600) :: (1743296400, 7200) :: (1761440400, 3600) :: (1774746000, 7200) ::
   (1792890000, 3600) :: (1806195600, 7200) :: (1824944400, 3600) :: (1837645200, 7200) ::
   (1856394000, 3600) :: (1869094800, 7200) :: (1887843600, 3600) :: (1901149200, 7200) ::
   (1919293200, 3600) :: (1932598800, 7200) :: (1950742800, 3600) :: (1964048400, 7200) ::
   (1982797200, 3600) :: (1995498000, 7200) :: (2014246800, 3600) :: (2026947600, 7200) ::
   (2045696400, 3600) :: (2058397200, 7200) :: (2077146000, 3600) :: (2090451600, 7200) ::
   (2108595600, 3600) :: (2121901200, 7200) :: (2140045200, 3600) :: [])

/-- `timezone('Europe/Vienna')` (`exchange_calendar_xwbo.py` line 104). -/
def Zones.europeVienna : Tz := .ofSeconds (3900)
  ((-2147483648, 3600) :: (-1693706400, 7200) :: (-1680483600, 3600) :: (-1663455600, 7200) ::
   (-1650150000, 3600) :: (-1632006000, 7200) :: (-1618700400, 3600) :: (-1569711600, 7200) ::
   (-1555801200, 3600) :: (-938905200, 7200) :: (-857257200, 3600) :: (-844556400, 7200) ::
   (-828226800, 3600) :: (-812502000, 7200) :: (-796777200, 3600) :: (-781052400, 7200) ::
   (-780188400, 3600) :: (-748479600, 7200) :: (-733273200, 3600) :: (-717634800, 7200) ::
   (-701910000, 3600) :: (-684975600, 7200) :: (-670460400, 3600) :: (323823600, 7200) ::
   (338940000, 3600) :: (354675600, 7200) :: (370400400, 3600) :: (386125200, 7200) ::
   (401850000, 3600) :: (417574800, 7200) :: (433299600, 3600) :: (449024400, 7200) ::
   (465354000, 3600) :: (481078800, 7200) :: (496803600, 3600) :: (512528400, 7200) ::
   (528253200, 3600) :: (543978000, 7200) :: (559702800, 3600) :: (575427600, 7200) ::
   (591152400, 3600) :: (606877200, 7200) :: (622602000, 3600) :: (638326800, 7200) ::
   (654656400, 3600) :: (670381200, 7200) :: (686106000, 3600) :: (701830800, 7200) ::
   (717555600, 3600) :: (733280400, 7200) :: (749005200, 3600) :: (764730000, 7200) ::
   (780454800, 3600) :: (796179600, 7200) :: (811904400, 3600) :: (828234000, 7200) ::
   (846378000, 3600) :: (859683600, 7200) :: (877827600, 3600) :: (891133200, 7200) ::
   (909277200, 3600) :: (922582800, 7200) :: (941331600, 3600) :: (954032400, 7200) ::
   (972781200, 3600) :: (985482000, 7200) :: (1004230800, 3600) :: (1017536400, 7200) ::
   (1035680400, 3600) :: (1048986000, 7200) :: (1067130000, 3600) :: (1080435600, 7200) ::
   (1099184400, 3600) :: (1111885200, 7200) :: (1130634000, 3600) :: (1143334800, 7200) ::
   (1162083600, 3600) :: (1174784400, 7200) :: (1193533200, 3600) :: (1206838800, 7200) ::
   (1224982800, 3600) :: (1238288400, 7200) :: (1256432400, 3600) :: (1269738000, 7200) ::
   (1288486800, 3600) :: (1301187600, 7200) :: (1319936400, 3600) :: (1332637200, 7200) ::
   (1351386000, 3600) :: (1364691600, 7200) :: (1382835600, 3600) :: (1396141200, 7200) ::
   (1414285200, 3600) :: (1427590800, 7200) :: (1445734800, 3600) :: (1459040400, 7200) ::
   (1477789200, 3600) :: (1490490000, 7200) :: (1509238800, 3600) :: (1521939600, 7200) ::
   (1540688400, 3600) :: (1553994000, 7200) :: (1572138000, 3600) :: (1585443600, 7200) ::
   (1603587600, 3600) :: (1616893200, 7200) :: (1635642000, 3600) :: (1648342800, 7200) ::
   (1667091600, 3600) :: (1679792400, 7200) :: (1698541200, 3600) :: (1711846800, 7200) ::
   (1729990800, 3600) :: (1743296400, 7200) :: (1761440400, 3600) :: (1774746000, 7200) ::
   (1792890000, 3600) :: (1806195600, 7200) :: (1824944400, 3600) :: (1837645200, 7200) ::
   (1856394000, 3600) :: (1869094800, 7200) :: (1887843600, 3600) :: (1901149200, 7200) ::
   (1919293200, 3600) :: (1932598800, 7200) :: (1950742800, 3600) :: (1964048400, 7200) ::
   (1982797200, 3600) :: (1995498000, 7200) :: (2014246800, 3600) :: (2026947600, 7200) ::
   (2045696400, 3600) :: (2058397200, 7200) :: (2077146000, 3600) :: (2090451600, 7200) ::
   (2108595600, 3600) :: (2121901200, 7200) :: (2140045200, 3600) :: [])

/-- `timezone('Europe/Warsaw')` (`exchange_calendar_xwar.py` line 114). -/
def Zones.europeWarsaw : Tz := .ofSeconds (5040)
  ((-1717032240, 3600) :: (-1693706400, 7200) :: (-1680483600, 3600) :: (-1663455600, 7200) ::
   (-1650150000, 3600) :: (-1632006000, 7200) :: (-1618700400, 7200) :: (-1600473600, 10800) ::
   (-1587168000, 7200) :: (-1501725600, 3600) :: (-931734000, 7200) :: (-857257200, 3600) ::
   (-844556400, 7200) :: (-828226800, 3600) :: (-812502000, 7200) :: (-796608000, 3600) ::
   (-778726800, 7200) :: (-762660000, 3600) :: (-748486800, 7200) :: (-733273200, 3600) ::
   (-715215600, 7200) :: (-701910000, 3600) :: (-684975600, 7200) :: (-670460400, 3600) ::
   (-654130800, 7200) :: (-639010800, 3600) :: (-397094400, 7200) :: (-386812800, 3600) ::
   (-371088000, 7200) :: (-355363200, 3600) :: (-334195200, 7200) :: (-323308800, 3600) ::
   (-307584000, 7200) :: (-291859200, 3600) :: (-271296000, 7200) :: (-260409600, 3600) ::
   (-239846400, 7200) :: (-228960000, 3600) :: (-208396800, 7200) :: (-197510400, 3600) ::
   (-176342400, 7200) :: (-166060800, 3600) :: (228873600, 7200) :: (243993600, 3600) ::
   (260323200, 7200) :: (276048000, 3600) :: (291772800, 7200) :: (307497600, 3600) ::
   (323827200, 7200) :: (338947200, 3600) :: (354672000, 7200) :: (370396800, 3600) ::
   (386121600, 7200) :: (401846400, 3600) :: (417571200, 7200) :: (433296000, 3600) ::
   (449020800, 7200) :: (465350400, 3600) :: (481075200, 7200) :: (496800000, 3600) ::
   (512524800, 7200) :: (528249600, 3600) :: (543974400, 7200) :: (559699200, 3600) ::
   (575427600, 7200) :: (591152400, 3600) :: (606877200, 7200) :: (622602000, 3600) ::
   (638326800, 7200) :: (654656400, 3600) :: (670381200, 7200) :: (686106000, 3600) ::
   (701830800, 7200) :: (717555600, 3600) :: (733280400, 7200) :: (749005200, 3600) ::
   (764730000, 7200) :: (780454800, 3600) :: (796179600, 7200) :: (811904400, 3600) ::
   (828234000, 7200) :: (846378000, 3600) :: (859683600, 7200) :: (877827600, 3600) ::
   (891133200, 7200) :: (909277200, 3600) :: (922582800, 7200) :: (941331600, 3600) ::
   (954032400, 7200) :: (972781200, 3600) :: (985482000, 7200) :: (1004230800, 3600) ::
   (1017536400, 7200) :: (1035680400, 3600) :: (1048986000, 7200) :: (1067130000, 3600) ::
   (1080435600, 7200) :: (1099184400, 3600) :: (1111885200, 7200) :: (1130634000, 3600) ::
   (1143334800, 7200) :: (1162083600, 3600) :: (1174784400, 7200) :: (1193533200, 3600) ::
   (1206838800, 7200) :: (1224982800, 3600) :: (1238288400, 7200) :: (1256432400, 3600) ::
   (1269738000, 7200) :: (1288486800, 3600) :: (1301187600, 7200) :: (1319936400, 3600) ::
   (1332637200, 7200) :: (1351386000, 3600) :: (1364691600, 7200) :: (1382835600, 3600) ::
   (1396141200, 7200) :: (1414285200, 3600) :: (1427590800, 7200) :: (1445734800, 3600) ::
   (1459040400, 7200) :: (1477789200, 3600) :: (1490490000, 7200) :: (1509238800, 3600) ::
   (1521939600, 7200) :: (1540688400, 3600) :: (1553994000, 7200) :: (1572138000, 3600) ::
   (1585443600, 7200) :: (1603587600, 3600) :: (1616893200, 7200) :: (1635642000, 3600) ::
   (1648342800, 7200) :: (1667091600, 3600) :: (1679792400, 7200) :: (1698541200, 3600) ::
   (1711846800, 7200) :: (1729990800, 3600) :: (1743296400, 7200) :: (1761440400, 3600) ::
   (1774746000, 7200) :: (1792890000, 3600) :: (1806195600, 7200) :: (1824944400, 3600) ::
   (1837645200, 7200) :: (1856394000, 3600) :: (1869094800, 7200) :: (1887843600, 3600) ::
   (1901149200, 7200) :: (1919293200, 3600) :: (1932598800, 7200) :: (1950742800, 3600) ::
   (1964048400, 7200) :: (1982797200, 3600) :: (1995498000, 7200) :: (2014246800, 3600) ::
   (2026947600, 7200) :: (2045696400, 3600) :: (2058397200, 7200) :: (2077146000, 3600) ::
   (2090451600, 7200) :: (2108595600, 3600) :: (2121901200, 7200) :: (2140045200, 3600) :: [])

/-- `timezone('Europe/Zurich')` (`exchange_calendar_xswx.py` line 94). -/
def Zones.europeZurich : Tz := .ofSeconds (2040)
  ((-2147483648, 3600) :: (-904435200, 7200) :: (-891129600, 3600) :: (-872985600, 7200) ::
   (-859680000, 3600) :: (354675600, 7200) :: (370400400, 3600) :: (386125200, 7200) ::
   (401850000, 3600) :: (417574800, 7200) :: (433299600, 3600) :: (449024400, 7200) ::
   (465354000, 3600) :: (481078800, 7200) :: (496803600, 3600) :: (512528400, 7200) ::
   (528253200, 3600) :: (543978000, 7200) :: (559702800, 3600) :: (575427600, 7200) ::
   (591152400, 3600) :: (606877200, 7200) :: (622602000, 3600) :: (638326800, 7200) ::
   (654656400, 3600) :: (670381200, 7200) :: (686106000, 3600) :: (701830800, 7200) ::
   (717555600, 3600) :: (733280400, 7200) :: (749005200, 3600) :: (764730000, 7200) ::
   (780454800, 3600) :: (796179600, 7200) :: (811904400, 3600) :: (828234000, 7200) ::
   (846378000, 3600) :: (859683600, 7200) :: (877827600, 3600) :: (891133200, 7200) ::
   (909277200, 3600) :: (922582800, 7200) :: (941331600, 3600) :: (954032400, 7200) ::
   (972781200, 3600) :: (985482000, 7200) :: (1004230800, 3600) :: (1017536400, 7200) ::
   (1035680400, 3600) :: (1048986000, 7200) :: (1067130000, 3600) :: (1080435600, 7200) ::
   (1099184400, 3600) :: (1111885200, 7200) :: (1130634000, 3600) :: (1143334800, 7200) ::
   (1162083600, 3600) :: (1174784400, 7200) :: (1193533200, 3600) :: (1206838800, 7200) ::
   (1224982800, 3600) :: (1238288400, 7200) :: (1256432400, 3600) :: (1269738000, 7200) ::
   (1288486800, 3600) :: (1301187600, 7200) :: (1319936400, 3600) :: (1332637200, 7200) ::
   (1351386000, 3600) :: (1364691600, 7200) :: (1382835600, 3600) :: (1396141200, 7200) ::
   (1414285200, 3600) :: (1427590800, 7200) :: (1445734800, 3600) :: (1459040400, 7200) ::
   (1477789200, 3600) :: (1490490000, 7200) :: (1509238800, 3600) :: (1521939600, 7200) ::
   (1540688400, 3600) :: (1553994000, 7200) :: (1572138000, 3600) :: (1585443600, 7200) ::
   (1603587600, 3600) :: (1616893200, 7200) :: (1635642000, 3600) :: (1648342800, 7200) ::
   (1667091600, 3600) :: (1679792400, 7200) :: (1698541200, 3600) :: (1711846800, 7200) ::
   (1729990800, 3600) :: (1743296400, 7200) :: (1761440400, 3600) :: (1774746000, 7200) ::
   (1792890000, 3600) :: (1806195600, 7200) :: (1824944400, 3600) :: (1837645200, 7200) ::
   (1856394000, 3600) :: (1869094800, 7200) :: (1887843600, 3600) :: (1901149200, 7200) ::
   (1919293200, 3600) :: (1932598800, 7200) :: (1950742800, 3600) :: (1964048400, 7200) ::
   (1982797200, 3600) :: (1995498000, 7200) :: (2014246800, 3600) :: (2026947600, 7200) ::
   (2045696400, 3600) :: (2058397200, 7200) :: (2077146000, 3600) :: (2090451600, 7200) ::
   (2108595600, 3600) :: (2121901200, 7200) :: (2140045200, 3600) :: [])

/-- `timezone('NZ')` (`exchange_calendar_xnze.py` line 165). -/
def Zones.nz : Tz := .ofSeconds (41940)
  ((-2147483648, 41400) :: (-1330335000, 45000) :: (-1320057000, 41400) :: (-1300699800, 43200) ::
   (-1287396000, 41400) :: (-1269250200, 43200) :: (-1255946400, 41400) ::
   (-1237800600, 43200) :: (-1224496800, 41400) :: (-1206351000, 43200) ::
   (-1192442400, 41400) :: (-1174901400, 43200) :: (-1160992800, 41400) ::
   (-1143451800, 43200) :: (-1125914400, 41400) :: (-1112607000, 43200) ::
   (-1094464800, 41400) :: (-1081157400, 43200) :: (-1063015200, 41400) ::
   (-1049707800, 43200) :: (-1031565600, 41400) :: (-1018258200, 43200) ::
   (-1000116000, 41400) :: (-986808600, 43200) :: (-968061600, 41400) :: (-955359000, 43200) ::
   (-936612000, 41400) :: (-923304600, 43200) :: (-757425600, 43200) :: (152632800, 46800) ::
   (162309600, 43200) :: (183477600, 46800) :: (194968800, 43200) :: (215532000, 46800) ::
   (226418400, 43200) :: (246981600, 46800) :: (257868000, 43200) :: (278431200, 46800) ::
   (289317600, 43200) :: (309880800, 46800) :: (320767200, 43200) :: (341330400, 46800) ::
   (352216800, 43200) :: (372780000, 46800) :: (384271200, 43200) :: (404834400, 46800) ::
   (415720800, 43200) :: (436284000, 46800) :: (447170400, 43200) :: (467733600, 46800) ::
   (478620000, 43200) :: (499183200, 46800) :: (510069600, 43200) :: (530632800, 46800) ::
   (541519200, 43200) :: (562082400, 46800) :: (573573600, 43200) :: (594136800, 46800) ::
   (605023200, 43200) :: (623772000, 46800) :: (637682400, 43200) :: (655221600, 46800) ::
   (669132000, 43200) :: (686671200, 46800) :: (700581600, 43200) :: (718120800, 46800) ::
   (732636000, 43200) :: (749570400, 46800) :: (764085600, 43200) :: (781020000, 46800) ::
   (795535200, 43200) :: (812469600, 46800) :: (826984800, 43200) :: (844524000, 46800) ::
   (858434400, 43200) :: (875973600, 46800) :: (889884000, 43200) :: (907423200, 46800) ::
   (921938400, 43200) :: (938872800, 46800) :: (953388000, 43200) :: (970322400, 46800) ::
   (984837600, 43200) :: (1002376800, 46800) :: (1016287200, 43200) :: (1033826400, 46800) ::
   (1047736800, 43200) :: (1065276000, 46800) :: (1079791200, 43200) :: (1096725600, 46800) ::
   (1111240800, 43200) :: (1128175200, 46800) :: (1142690400, 43200) :: (1159624800, 46800) ::
   (1174140000, 43200) :: (1191074400, 46800) :: (1207404000, 43200) :: (1222524000, 46800) ::
   (1238853600, 43200) :: (1253973600, 46800) :: (1270303200, 43200) :: (1285423200, 46800) ::
   (1301752800, 43200) :: (1316872800, 46800) :: (1333202400, 43200) :: (1348927200, 46800) ::
   (1365256800, 43200) :: (1380376800, 46800) :: (1396706400, 43200) :: (1411826400, 46800) ::
   (1428156000, 43200) :: (1443276000, 46800) :: (1459605600, 43200) :: (1474725600, 46800) ::
   (1491055200, 43200) :: (1506175200, 46800) :: (1522504800, 43200) :: (1538229600, 46800) ::
   (1554559200, 43200) :: (1569679200, 46800) :: (1586008800, 43200) :: (1601128800, 46800) ::
   (1617458400, 43200) :: (1632578400, 46800) :: (1648908000, 43200) :: (1664028000, 46800) ::
   (1680357600, 43200) :: (1695477600, 46800) :: (1712412000, 43200) :: (1727532000, 46800) ::
   (1743861600, 43200) :: (1758981600, 46800) :: (1775311200, 43200) :: (1790431200, 46800) ::
   (1806760800, 43200) :: (1821880800, 46800) :: (1838210400, 43200) :: (1853330400, 46800) ::
   (1869660000, 43200) :: (1885384800, 46800) :: (1901714400, 43200) :: (1916834400, 46800) ::
   (1933164000, 43200) :: (1948284000, 46800) :: (1964613600, 43200) :: (1979733600, 46800) ::
   (1996063200, 43200) :: (2011183200, 46800) :: (2027512800, 43200) :: (2042632800, 46800) ::
   (2058962400, 43200) :: (2074687200, 46800) :: (2091016800, 43200) :: (2106136800, 46800) ::
   (2122466400, 43200) :: (2137586400, 46800) :: [])

end TC
