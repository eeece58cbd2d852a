import Verif.Go.Texts
import Verif.Go.Chars
import Verif.Model.Humanize.Collection
/-!
# The locales that come with the humanizer

A transcription of the packages in /repo/humanize/locale (one directory for each language): what `New` in the Go file of
the directory returns, and of `django.po` the Plural-Forms header, the texts that dates and times consist of, and which
plural forms have a text.  The other messages are not transcribed.
-/
namespace Verif.Model.Humanize
open Verif.Go

/-- What a catalog has for the names in dates: the translations of the names in /repo/humanize/dates.go and of the words in
/repo/humanize/dateformat.go:125-201; the name itself where there is no translation.  `short` are the abbreviations of
/repo/humanize/dates.go:39-52 with the first letter in upper case (`M`); `days` begins with Sunday. -/
structure Texts where
  months : List Bytes
  alternative : List Bytes
  abbreviated : List Bytes
  short : List Bytes
  days : List Bytes
  am : Bytes
  pm : Bytes
  bigAm : Bytes
  bigPm : Bytes
  midnight : Bytes
  noon : Bytes

/-- A directory of /repo/humanize/locale: its name, the language tag and the formats of `New`, the texts for dates, the
Plural-Forms header, and the kinds of plural messages: which of `msgstr[0]`, `msgstr[1]` and so on are not empty, for the
messages for which at least one is not; every kind once. -/
structure Shipped where
  dir : Bytes
  lang : Bytes
  format : Option FormatData
  texts : Texts
  pluralForms : List Char
  forms : List (List Bool)

/-- `New` of the package, for instance /repo/humanize/locale/de/locale.go:14-30; `tag` is `language.MustParse`, `fs` the
embedded file. -/
def Shipped.localeData {L : Type} (tag : Bytes → L) (fs : Bytes → Option Bytes) (s : Shipped) : LocaleData L :=
  ⟨tag s.lang, fs, s.format⟩

/-- /repo/humanize/locale/af/locale.go:14-19; /repo/humanize/locale/af/django.po (Plural-Forms: line 19). -/
def loc_af : Shipped where
  dir := b!"af"
  lang := b!"af"
  format := none
  texts := {
    months := [t!"Januarie", t!"Februarie", t!"Maart", t!"April", t!"Mei", t!"Junie", t!"Julie", t!"Augustus", t!"September", t!"Oktober", t!"November", t!"Desember"]
    alternative := [t!"Januarie", t!"Februarie", t!"Maart", t!"April", t!"Mei", t!"Junie", t!"Julie", t!"Augustus", t!"September", t!"Oktober", t!"November", t!"Desember"]
    abbreviated := [t!"Jan.", t!"Feb.", t!"Maart", t!"April", t!"Mei", t!"Junie", t!"Julie", t!"Aug.", t!"Sept.", t!"Okt.", t!"Nov.", t!"Des."]
    short := [t!"Jan", t!"Feb", t!"Mrt", t!"Apr", t!"Mei", t!"Jun", t!"Jul", t!"Aug", t!"Sept", t!"Okt", t!"Nov", t!"Des"]
    days := [t!"Sondag", t!"Maandag", t!"Dinsdag", t!"Woensdag", t!"Donderdag", t!"Vrydag", t!"Saterdag"]
    am := t!"vm."
    pm := t!"nm."
    bigAm := t!"VM"
    bigPm := t!"NM"
    midnight := t!"middernag"
    noon := t!"middag" }
  pluralForms := c!"nplurals=2; plural=(n != 1);"
  forms := [[true, true]]

/-- /repo/humanize/locale/ar/main.go:14-26; /repo/humanize/locale/ar/django.po (Plural-Forms: line 26). -/
def loc_ar : Shipped where
  dir := b!"ar"
  lang := b!"ar"
  format := some ⟨t!"j F، Y", t!"g:i A", [], t!"F Y", t!"j F", t!"d/m/Y", [], 0⟩
  texts := {
    months := [t!"يناير", t!"فبراير", t!"مارس", t!"إبريل", t!"مايو", t!"يونيو", t!"يوليو", t!"أغسطس", t!"سبتمبر", t!"أكتوبر", t!"نوفمبر", t!"ديسمبر"]
    alternative := [t!"يناير", t!"فبراير", t!"مارس", t!"أبريل", t!"مايو", t!"يونيو", t!"يوليو", t!"أغسطس", t!"سبتمبر", t!"أكتوبر", t!"نوفمبر", t!"ديسمبر"]
    abbreviated := [t!"يناير", t!"فبراير", t!"مارس", t!"إبريل", t!"مايو", t!"يونيو", t!"يوليو", t!"أغسطس", t!"سبتمبر", t!"أكتوبر", t!"نوفمبر", t!"ديسمبر"]
    short := [t!"يناير", t!"فبراير", t!"مارس", t!"إبريل", t!"مايو", t!"يونيو", t!"يوليو", t!"أغسطس", t!"سبتمبر", t!"أكتوبر", t!"نوفمبر", t!"ديسمبر"]
    days := [t!"الأحد", t!"الاثنين", t!"الثلاثاء", t!"الأربعاء", t!"الخميس", t!"الجمعة", t!"السبت"]
    am := t!"ص"
    pm := t!"م"
    bigAm := t!"ص"
    bigPm := t!"م"
    midnight := t!"منتصف الليل"
    noon := t!"ظهراً" }
  pluralForms := c!"nplurals=6; plural=n==0 ? 0 : n==1 ? 1 : n==2 ? 2 : n%100>=3 && n%100<=10 ? 3 : n%100>=11 && n%100<=99 ? 4 : 5;"
  forms := [[true, true, true, true, true, true]]

/-- /repo/humanize/locale/arDZ/main.go:14-29; /repo/humanize/locale/arDZ/django.po (Plural-Forms: line 19). -/
def loc_arDZ : Shipped where
  dir := b!"arDZ"
  lang := b!"ar-DZ"
  format := some ⟨t!"j F Y", t!"H:i", t!"j F Y H:i", t!"F Y", t!"j F", t!"j F Y", t!"j F Y H:i", 0⟩
  texts := {
    months := [t!"جانفي", t!"فيفري", t!"مارس", t!"أفريل", t!"ماي", t!"جوان", t!"جويليه", t!"أوت", t!"سبتمبر", t!"أكتوبر", t!"نوفمبر", t!"ديسمبر"]
    alternative := [t!"جانفي", t!"فيفري", t!"مارس", t!"أفريل", t!"ماي", t!"جوان", t!"جويليه", t!"أوت", t!"سبتمبر", t!"أكتوبر", t!"نوفمبر", t!"ديسمبر"]
    abbreviated := [t!"جانفي", t!"فيفري", t!"مارس", t!"أفريل", t!"ماي", t!"جوان", t!"جويليه", t!"أوت", t!"سبتمبر", t!"أكتوبر", t!"نوفمبر", t!"ديسمبر"]
    short := [t!"جانفي", t!"فيفري", t!"مارس", t!"أفريل", t!"ماي", t!"جوان", t!"جويليه", t!"أوت", t!"سبتمبر", t!"أكتوبر", t!"نوفمبر", t!"ديسمبر"]
    days := [t!"الأحد", t!"الاثنين", t!"الثلاثاء", t!"الأربعاء", t!"الخميس", t!"الجمعة", t!"السبت"]
    am := t!"ص"
    pm := t!"م"
    bigAm := t!"ص"
    bigPm := t!"م"
    midnight := t!"منتصف الليل"
    noon := t!"ظهراً" }
  pluralForms := c!"nplurals=6; plural=n==0 ? 0 : n==1 ? 1 : n==2 ? 2 : n%100>=3 && n%100<=10 ? 3 : n%100>=11 && n%100<=99 ? 4 : 5;"
  forms := [[true, true, true, true, true, true]]

/-- /repo/humanize/locale/ast/main.go:14-19; /repo/humanize/locale/ast/django.po (Plural-Forms: line 17). -/
def loc_ast : Shipped where
  dir := b!"ast"
  lang := b!"ast"
  format := none
  texts := {
    months := [t!"Xineru", t!"Febreru", t!"Marzu", t!"Abril", t!"Mayu", t!"Xunu", t!"Xunetu", t!"Agostu", t!"Setiembre", t!"Ochobre", t!"Payares", t!"Avientu"]
    alternative := [t!"Xineru", t!"Febreru", t!"Marzu", t!"Abril", t!"Mayu", t!"Xunu", t!"Xunetu", t!"Agostu", t!"Setiembre", t!"Ochobre", t!"Payares", t!"Avientu"]
    abbreviated := [t!"Xin.", t!"Feb.", t!"Mar.", t!"Abr.", t!"May.", t!"Xun.", t!"Xnt.", t!"Ago.", t!"Set.", t!"Och.", t!"Pay.", t!"Avi."]
    short := [t!"Xin", t!"Feb", t!"Mar", t!"Abr", t!"May", t!"Xun", t!"Xnt", t!"Ago", t!"Set", t!"Och", t!"Pay", t!"Avi"]
    days := [t!"Domingu", t!"Llunes", t!"Martes", t!"Miércoles", t!"Xueves", t!"Vienres", t!"Sábadu"]
    am := t!"a.m."
    pm := t!"p.m."
    bigAm := t!"AM"
    bigPm := t!"PM"
    midnight := t!"Media nueche"
    noon := t!"Meudía" }
  pluralForms := c!"nplurals=2; plural=(n != 1);"
  forms := [[true, true]]

/-- /repo/humanize/locale/az/main.go:14-29; /repo/humanize/locale/az/django.po (Plural-Forms: line 22). -/
def loc_az : Shipped where
  dir := b!"az"
  lang := b!"az"
  format := some ⟨t!"j E Y", t!"G:i", t!"j E Y, G:i", t!"F Y", t!"j F", t!"d.m.Y", t!"d.m.Y H:i", 1⟩
  texts := {
    months := [t!"Yanvar", t!"Fevral", t!"Mart", t!"Aprel", t!"May", t!"İyun", t!"İyul", t!"Avqust", t!"Sentyabr", t!"Oktyabr", t!"Noyabr", t!"Dekabr"]
    alternative := [t!"Yanvar", t!"Fevral", t!"Mart", t!"Aprel", t!"May", t!"İyun", t!"İyul", t!"Avqust", t!"Sentyabr", t!"Oktyabr", t!"Noyabr", t!"Dekabr"]
    abbreviated := [t!"Yan.", t!"Fev.", t!"Mart", t!"Aprel", t!"May", t!"İyun", t!"İyul", t!"Avq.", t!"Sen.", t!"Okt.", t!"Noy.", t!"Dek."]
    short := [t!"Ynv", t!"Fvr", t!"Mar", t!"Apr", t!"May", t!"Iyn", t!"Iyl", t!"Avq", t!"Snt", t!"Okt", t!"Noy", t!"Dek"]
    days := [t!"Bazar", t!"Bazar ertəsi", t!"Çərşənbə axşamı", t!"Çərşənbə", t!"Cümə axşamı", t!"Cümə", t!"Şənbə"]
    am := t!"g.ə."
    pm := t!"g.s."
    bigAm := t!"GƏ"
    bigPm := t!"GS"
    midnight := t!"gecə yarısı"
    noon := t!"günorta" }
  pluralForms := c!"nplurals=2; plural=(n != 1);"
  forms := [[true, true]]

/-- /repo/humanize/locale/be/main.go:14-19; /repo/humanize/locale/be/django.po (Plural-Forms: line 19). -/
def loc_be : Shipped where
  dir := b!"be"
  lang := b!"be"
  format := none
  texts := {
    months := [t!"студзеня", t!"лютага", t!"сакавік", t!"красавіка", t!"траўня", t!"чэрвеня", t!"ліпеня", t!"жніўня", t!"верасьня", t!"кастрычніка", t!"лістапада", t!"сьнежня"]
    alternative := [t!"студзеня", t!"лютага", t!"сакавік", t!"красавіка", t!"траўня", t!"чэрвеня", t!"ліпеня", t!"жніўня", t!"верасьня", t!"кастрычніка", t!"лістапада", t!"сьнежня"]
    abbreviated := [t!"Сту.", t!"Люты", t!"сакавік", t!"красавіка", t!"траўня", t!"чэрвеня", t!"ліпеня", t!"Жні.", t!"Вер.", t!"Кас.", t!"Ліс.", t!"Сьн."]
    short := [t!"Сту", t!"Лют", t!"Сак", t!"Кра", t!"Тра", t!"Чэр", t!"Ліп", t!"Жні", t!"Вер", t!"Кас", t!"Ліс", t!"Сьн"]
    days := [t!"Нядзеля", t!"Панядзелак", t!"Аўторак", t!"Серада", t!"Чацьвер", t!"Пятніца", t!"Субота"]
    am := t!"папоўначы"
    pm := t!"папаўдні"
    bigAm := t!"папоўначы"
    bigPm := t!"папаўдні"
    midnight := t!"поўнач"
    noon := t!"поўдзень" }
  pluralForms := c!"nplurals=4; plural=(n%10==1 && n%100!=11 ? 0 : n%10>=2 && n%10<=4 && (n%100<12 || n%100>14) ? 1 : n%10==0 || (n%10>=5 && n%10<=9) || (n%100>=11 && n%100<=14)? 2 : 3);"
  forms := [[true, true, true, true]]

/-- /repo/humanize/locale/bg/locale.go:14-25; /repo/humanize/locale/bg/django.po (Plural-Forms: line 26). -/
def loc_bg : Shipped where
  dir := b!"bg"
  lang := b!"bg"
  format := some ⟨t!"d F Y", t!"H:i", [], [], t!"j F", t!"d.m.Y", [], 0⟩
  texts := {
    months := [t!"Януари", t!"Февруари", t!"Март", t!"Април", t!"Май", t!"Юни", t!"Юли", t!"Август", t!"Септември", t!"Октомври", t!"Ноември", t!"Декември"]
    alternative := [t!"Януари", t!"Февруари", t!"Март", t!"Април", t!"Май", t!"Юни", t!"Юли", t!"Август", t!"Септември", t!"Октомври", t!"Ноември", t!"Декември"]
    abbreviated := [t!"Ян.", t!"Фев.", t!"Март", t!"Апр.", t!"Май", t!"Юни", t!"Юли", t!"Авг.", t!"Септ.", t!"Окт.", t!"Ноем.", t!"Дек."]
    short := [t!"Ян", t!"Фев", t!"Мар", t!"Апр", t!"Май", t!"Юни", t!"Юли", t!"Авг", t!"Сеп", t!"Окт", t!"Ноем", t!"Дек"]
    days := [t!"неделя", t!"понеделник", t!"вторник", t!"сряда", t!"четвъртък", t!"петък", t!"събота"]
    am := t!"преди обяд"
    pm := t!"след обяд"
    bigAm := t!"преди обяд"
    bigPm := t!"след обяд"
    midnight := t!"полунощ"
    noon := t!"обяд" }
  pluralForms := c!"nplurals=2; plural=(n != 1);"
  forms := [[true, true]]

/-- /repo/humanize/locale/bn/locale.go:14-27; /repo/humanize/locale/bn/django.po (Plural-Forms: line 20). -/
def loc_bn : Shipped where
  dir := b!"bn"
  lang := b!"bn"
  format := some ⟨t!"j F, Y", t!"g:i A", [], t!"F Y", t!"j F", t!"j M, Y", [], 6⟩
  texts := {
    months := [t!"জানুয়ারি", t!"ফেব্রুয়ারি", t!"মার্চ", t!"এপ্রিল", t!"মে", t!"জুন", t!"জুলাই", t!"আগস্ট", t!"সেপ্টেম্বর", t!"অক্টোবর", t!"নভেম্বর", t!"ডিসেম্বর"]
    alternative := [t!"জানুয়ারি", t!"ফেব্রুয়ারি", t!"মার্চ", t!"এপ্রিল", t!"মে", t!"জুন", t!"জুলাই", t!"আগস্ট", t!"সেপ্টেম্বর", t!"অক্টোবর", t!"নভেম্বর", t!"ডিসেম্বর"]
    abbreviated := [t!"জানু.", t!"ফেব্রু.", t!"মার্চ", t!"এপ্রিল", t!"মে", t!"জুন", t!"জুলাই", t!"আগ.", t!"সেপ্ট.", t!"অক্টো.", t!"নভে.", t!"ডিসে."]
    short := [t!"জান.", t!"ফেব.", t!"মার্চ", t!"এপ্রি.", t!"মে", t!"জুন", t!"জুল.", t!"আগ.", t!"সেপ্টে.", t!"অক্টো.", t!"নভে.", t!"ডিসে."]
    days := [t!"রবিবার", t!"সোমবার", t!"মঙ্গলবার", t!"বুধবার", t!"বৃহস্পতিবার", t!"শুক্রবার", t!"শনিবার"]
    am := t!"পূর্বাহ্ন"
    pm := t!"অপরাহ্ন"
    bigAm := t!"পূর্বাহ্ন"
    bigPm := t!"অপরাহ্ন"
    midnight := t!"মধ্যরাত"
    noon := t!"দুপুর" }
  pluralForms := c!"nplurals=2; plural=(n != 1);"
  forms := [[true, true]]

/-- /repo/humanize/locale/br/locale.go:14-19; /repo/humanize/locale/br/django.po (Plural-Forms: line 19). -/
def loc_br : Shipped where
  dir := b!"br"
  lang := b!"br"
  format := none
  texts := {
    months := [t!"Genver", t!"C'hwevrer", t!"Meurzh", t!"Ebrel", t!"Mae", t!"Mezheven", t!"Gouere", t!"Eost", t!"Gwengolo", t!"Here", t!"Du", t!"Kerzu"]
    alternative := [t!"Genver", t!"C'hwevrer", t!"Meurzh", t!"Ebrel", t!"Mae", t!"Mezheven", t!"Gouere", t!"Eost", t!"Gwengolo", t!"Here", t!"Du", t!"Kerzu"]
    abbreviated := [t!"Gen.", t!"C'hwe.", t!"Meu.", t!"Ebr.", t!"Mae", t!"Mez.", t!"Gou.", t!"Eos.", t!"Gwe.", t!"Her.", t!"Du", t!"Kzu"]
    short := [t!"Gen", t!"C'hwe", t!"Meu", t!"Ebr", t!"Mae", t!"Mez", t!"Gou", t!"Eos", t!"Gwe", t!"Her", t!"Du", t!"Kzu"]
    days := [t!"Sul", t!"Lun", t!"Meurzh", t!"Merc'her", t!"Yaou", t!"Gwener", t!"Sadorn"]
    am := t!"mintin"
    pm := t!"g.m."
    bigAm := t!"Mintin"
    bigPm := t!"G.M."
    midnight := t!"hanternoz"
    noon := t!"kreisteiz" }
  pluralForms := c!"nplurals=5; plural=((n%10 == 1) && (n%100 != 11) && (n%100 !=71) && (n%100 !=91) ? 0 :(n%10 == 2) && (n%100 != 12) && (n%100 !=72) && (n%100 !=92) ? 1 :(n%10 ==3 || n%10==4 || n%10==9) && (n%100 < 10 || n% 100 > 19) && (n%100 < 70 || n%100 > 79) && (n%100 < 90 || n%100 > 99) ? 2 :(n != 0 && n % 1000000 == 0) ? 3 : 4);"
  forms := [[true, true, true, true, true]]

/-- /repo/humanize/locale/bs/locale.go:14-27; /repo/humanize/locale/bs/django.po (Plural-Forms: line 18). -/
def loc_bs : Shipped where
  dir := b!"bs"
  lang := b!"bs"
  format := some ⟨t!"j. N Y.", t!"G:i", t!"j. N. Y. G:i T", t!"F Y.", t!"j. F", t!"Y M j", [], 0⟩
  texts := {
    months := [t!"januar", t!"februar", t!"mart", t!"april", t!"maj", t!"juni", t!"juli", t!"august", t!"septembar", t!"oktobar", t!"novembar", t!"decembar"]
    alternative := [t!"januar", t!"februar", t!"mart", t!"april", t!"maj", t!"juni", t!"juli", t!"august", t!"septembar", t!"oktobar", t!"Novembar", t!"decembar"]
    abbreviated := [t!"Jan.", t!"Feb.", t!"Mart", t!"April", t!"Maj", t!"Juni", t!"juli", t!"august", t!"septembar", t!"oktobar", t!"novembar", t!"decembar"]
    short := [t!"Jan.", t!"Feb.", t!"Mar.", t!"Apr.", t!"Maj.", t!"Jun.", t!"Jul.", t!"Aug.", t!"Sep.", t!"Okt.", t!"Nov.", t!"Dec."]
    days := [t!"nedjelja", t!"ponedjeljak", t!"utorak", t!"srijeda", t!"četvrtak", t!"petak", t!"subota"]
    am := t!"prije p."
    pm := t!"po p."
    bigAm := t!"AM"
    bigPm := t!"PM"
    midnight := t!"ponoć"
    noon := t!"podne" }
  pluralForms := c!"nplurals=3; plural=(n%10==1 && n%100!=11 ? 0 : n%10>=2 && n%10<=4 && (n%100<10 || n%100>=20) ? 1 : 2);"
  forms := []

/-- /repo/humanize/locale/ca/locale.go:14-29; /repo/humanize/locale/ca/django.po (Plural-Forms: line 28). -/
def loc_ca : Shipped where
  dir := b!"ca"
  lang := b!"ca"
  format := some ⟨t!"j E \\d\\e Y", t!"G:i", t!"j E \\d\\e Y \\a \\l\\e\\s G:i", t!"F \\d\\e\\l Y", t!"j E", t!"d/m/Y", t!"d/m/Y G:i", 1⟩
  texts := {
    months := [t!"gener", t!"febrer", t!"març", t!"abril", t!"maig", t!"juny", t!"juliol", t!"agost", t!"setembre", t!"octubre", t!"novembre", t!"desembre"]
    alternative := [t!"gener", t!"febrer", t!"març", t!"abril", t!"maig", t!"juny", t!"juliol", t!"agost", t!"setembre", t!"octubre", t!"novembre", t!"desembre"]
    abbreviated := [t!"Gen.", t!"Feb.", t!"Març", t!"Abr.", t!"Maig", t!"Juny", t!"Jul.", t!"Ago.", t!"Set.", t!"Oct.", t!"Nov.", t!"Des."]
    short := [t!"Gen.", t!"Feb.", t!"Març", t!"Abr.", t!"Maig", t!"Juny", t!"Jul.", t!"Ago.", t!"Set.", t!"Oct.", t!"Nov.", t!"Des."]
    days := [t!"Diumenge", t!"Dilluns", t!"Dimarts", t!"Dimecres", t!"Dijous", t!"Divendres", t!"Dissabte"]
    am := t!"a.m."
    pm := t!"p.m."
    bigAm := t!"AM"
    bigPm := t!"PM"
    midnight := t!"mitjanit"
    noon := t!"migdia" }
  pluralForms := c!"nplurals=2; plural=(n != 1);"
  forms := [[true, true]]

/-- /repo/humanize/locale/ckb/locale.go:14-29; /repo/humanize/locale/ckb/django.po (Plural-Forms: line 22). -/
def loc_ckb : Shipped where
  dir := b!"ckb"
  lang := b!"ckb"
  format := some ⟨t!"j F Y", t!"G:i", t!"j F Y، کاتژمێر G:i", t!"F Y", t!"j F", t!"Y/n/j", t!"Y/n/j، G:i", 6⟩
  texts := {
    months := [t!"ڕێبەندان", t!"ڕەشەمە", t!"نەورۆز", t!"گوڵان", t!"جۆزەردان", t!"پوشپەڕ", t!"گەلاوێژ", t!"خەرمانان", t!"ڕەزبەر", t!"گەڵاڕێزان", t!"سەرماوەرز", t!"بەفرانبار"]
    alternative := [t!"ڕێبەندان", t!"ڕەشەمە", t!"نەورۆز", t!"گوڵان", t!"جۆزەردان", t!"پوشپەڕ", t!"گەلاوێژ", t!"خەرمانان", t!"ڕەزبەر", t!"گەڵاڕێزان", t!"سەرماوەرز", t!"بەفرانبار"]
    abbreviated := [t!"‎ڕێبەندان", t!"ڕەشەمە", t!"نەورۆز", t!"گوڵان", t!"جۆزەردان", t!"پوشپەڕ", t!"گەلاوێژ", t!"خەرمانان", t!"ڕەزبەر", t!"‎گەڵاڕێزان", t!"‎سەرماوەرز", t!"‎بەفرانبار"]
    short := [t!"‎ڕێبەندان", t!"ڕەشەمە", t!"نەورۆز", t!"گوڵان", t!"‎جۆزەردان", t!"پوشپەڕ", t!"‎گەلاوێژ", t!"خەرمانان", t!"‎ڕەزبەر", t!"‎گەڵاڕێزان", t!"‎سەرماوەرز", t!"‎بەفرانبار"]
    days := [t!"یەکشەممە", t!"دووشەممە", t!"سێشەممە", t!"چوارشەممە", t!"پێنجشەممە", t!"هەینی", t!"شەممە"]
    am := t!"پ.ن"
    pm := t!"پ.ن"
    bigAm := t!"پ.ن"
    bigPm := t!"د.ن"
    midnight := t!"نیوەشەو"
    noon := t!"نیوەڕۆ" }
  pluralForms := c!"nplurals=2; plural=(n != 1);"
  forms := [[true, true]]

/-- /repo/humanize/locale/cs/locale.go:14-29; /repo/humanize/locale/cs/django.po (Plural-Forms: line 26). -/
def loc_cs : Shipped where
  dir := b!"cs"
  lang := b!"cs"
  format := some ⟨t!"j. E Y", t!"G:i", t!"j. E Y G:i", t!"F Y", t!"j. F", t!"d.m.Y", t!"d.m.Y G:i", 1⟩
  texts := {
    months := [t!"leden", t!"únor", t!"březen", t!"duben", t!"květen", t!"červen", t!"červenec", t!"srpen", t!"září", t!"říjen", t!"listopad", t!"prosinec"]
    alternative := [t!"ledna", t!"února", t!"března", t!"dubna", t!"května", t!"června", t!"července", t!"srpna", t!"září", t!"října", t!"listopadu", t!"prosince"]
    abbreviated := [t!"Led.", t!"Úno.", t!"Bře.", t!"Dub.", t!"Kvě.", t!"Čer.", t!"Čec.", t!"Srp.", t!"Zář.", t!"Říj.", t!"Lis.", t!"Pro."]
    short := [t!"Led", t!"Úno", t!"Bře", t!"Dub", t!"Kvě", t!"Čen", t!"Čec", t!"Srp", t!"Zář", t!"Říj", t!"Lis", t!"Pro"]
    days := [t!"neděle", t!"pondělí", t!"úterý", t!"středa", t!"čtvrtek", t!"pátek", t!"sobota"]
    am := t!"dop."
    pm := t!"odp."
    bigAm := t!"dop."
    bigPm := t!"odp."
    midnight := t!"půlnoc"
    noon := t!"poledne" }
  pluralForms := c!"nplurals=4; plural=(n == 1 && n % 1 == 0) ? 0 : (n >= 2 && n <= 4 && n % 1 == 0) ? 1: (n % 1 != 0 ) ? 2 : 3;"
  forms := [[true, true, true, true]]

/-- /repo/humanize/locale/cy/locale.go:14-29; /repo/humanize/locale/cy/django.po (Plural-Forms: line 18). -/
def loc_cy : Shipped where
  dir := b!"cy"
  lang := b!"cy"
  format := some ⟨t!"j F Y", t!"P", t!"j F Y, P", t!"F Y", t!"j F", t!"d/m/Y", t!"d/m/Y P", 1⟩
  texts := {
    months := [t!"Ionawr", t!"Chwefror", t!"Mawrth", t!"Ebrill", t!"Mai", t!"Mehefin", t!"Gorffenaf", t!"Awst", t!"Medi", t!"Hydref", t!"Tachwedd", t!"Rhagfyr"]
    alternative := [t!"Ionawr", t!"Chwefror", t!"Mawrth", t!"Ebrill", t!"Mai", t!"Mehefin", t!"Gorffenaf", t!"Awst", t!"Medi", t!"Hydref", t!"Tachwedd", t!"Rhagfyr"]
    abbreviated := [t!"Ion.", t!"Chwe.", t!"Mawrth", t!"Ebrill", t!"Mai", t!"Meh.", t!"Gorff.", t!"Awst", t!"Medi", t!"Hydr.", t!"Tach.", t!"Rhag."]
    short := [t!"Ion", t!"Chw", t!"Maw", t!"Ebr", t!"Mai", t!"Meh", t!"Gor", t!"Aws", t!"Med", t!"Hyd", t!"Tach", t!"Rhag"]
    days := [t!"Dydd Sul", t!"Dydd Llun", t!"Dydd Mawrth", t!"Dydd Mercher", t!"Dydd Iau", t!"Dydd Gwener", t!"Dydd Sadwrn"]
    am := t!"y.b."
    pm := t!"y.h."
    bigAm := t!"YB"
    bigPm := t!"YH"
    midnight := t!"canol nos"
    noon := t!"canol dydd" }
  pluralForms := c!"nplurals=4; plural=(n==1) ? 0 : (n==2) ? 1 : (n != 8 && n != 11) ? 2 : 3;"
  forms := [[true, true, true, true]]

/-- /repo/humanize/locale/da/locale.go:14-29; /repo/humanize/locale/da/django.po (Plural-Forms: line 25). -/
def loc_da : Shipped where
  dir := b!"da"
  lang := b!"da"
  format := some ⟨t!"j. F Y", t!"H:i", t!"j. F Y H:i", t!"F Y", t!"j. F", t!"d.m.Y", t!"d.m.Y H:i", 1⟩
  texts := {
    months := [t!"januar", t!"februar", t!"marts", t!"april", t!"maj", t!"juni", t!"juli", t!"august", t!"september", t!"oktober", t!"november", t!"december"]
    alternative := [t!"januar", t!"februar", t!"marts", t!"april", t!"maj", t!"juni", t!"juli", t!"august", t!"september", t!"oktober", t!"november", t!"december"]
    abbreviated := [t!"jan.", t!"feb.", t!"marts", t!"april", t!"maj", t!"juni", t!"juli", t!"aug.", t!"sept.", t!"okt.", t!"nov.", t!"dec."]
    short := [t!"Jan", t!"Feb", t!"Mar", t!"Apr", t!"Maj", t!"Jun", t!"Jul", t!"Aug", t!"Sept", t!"Okt", t!"Nov", t!"Dec"]
    days := [t!"søndag", t!"mandag", t!"tirsdag", t!"onsdag", t!"torsdag", t!"fredag", t!"lørdag"]
    am := t!"a.m."
    pm := t!"p.m."
    bigAm := t!"AM"
    bigPm := t!"PM"
    midnight := t!"midnat"
    noon := t!"middag" }
  pluralForms := c!"nplurals=2; plural=(n != 1);"
  forms := [[true, true]]

/-- /repo/humanize/locale/de/locale.go:14-29; /repo/humanize/locale/de/django.po (Plural-Forms: line 28). -/
def loc_de : Shipped where
  dir := b!"de"
  lang := b!"de"
  format := some ⟨t!"j. F Y", t!"H:i", t!"j. F Y H:i", t!"F Y", t!"j. F", t!"d.m.Y", t!"d.m.Y H:i", 1⟩
  texts := {
    months := [t!"Januar", t!"Februar", t!"März", t!"April", t!"Mai", t!"Juni", t!"Juli", t!"August", t!"September", t!"Oktober", t!"November", t!"Dezember"]
    alternative := [t!"Januar", t!"Februar", t!"März", t!"April", t!"Mai", t!"Juni", t!"Juli", t!"August", t!"September", t!"Oktober", t!"November", t!"Dezember"]
    abbreviated := [t!"Jan.", t!"Feb.", t!"März", t!"April", t!"Mai", t!"Juni", t!"Juli", t!"Aug.", t!"Sept.", t!"Okt.", t!"Nov.", t!"Dez."]
    short := [t!"Jan", t!"Feb", t!"Mär", t!"Apr", t!"Mai", t!"Jun", t!"Jul", t!"Aug", t!"Sep", t!"Okt", t!"Nov", t!"Dez"]
    days := [t!"Sonntag", t!"Montag", t!"Dienstag", t!"Mittwoch", t!"Donnerstag", t!"Freitag", t!"Samstag"]
    am := t!"vorm."
    pm := t!"nachm."
    bigAm := t!"vorm."
    bigPm := t!"nachm."
    midnight := t!"Mitternacht"
    noon := t!"Mittag" }
  pluralForms := c!"nplurals=2; plural=(n != 1);"
  forms := [[true, true]]

/-- /repo/humanize/locale/dsb/locale.go:14-19; /repo/humanize/locale/dsb/django.po (Plural-Forms: line 17). -/
def loc_dsb : Shipped where
  dir := b!"dsb"
  lang := b!"dsb"
  format := none
  texts := {
    months := [t!"Januar", t!"Februar", t!"Měrc", t!"Apryl", t!"Maj", t!"Junij", t!"Julij", t!"Awgust", t!"September", t!"Oktober", t!"Nowember", t!"December"]
    alternative := [t!"Januar", t!"Februar", t!"Měrc", t!"Apryl", t!"Maj", t!"Junij", t!"Julij", t!"Awgust", t!"September", t!"Oktober", t!"Nowember", t!"December"]
    abbreviated := [t!"Jan.", t!"Feb.", t!"Měrc", t!"Apryl", t!"Maj", t!"Junij", t!"Julij", t!"Awg.", t!"Sept.", t!"Okt.", t!"Now.", t!"Dec."]
    short := [t!"Jan", t!"Feb", t!"Měr", t!"Apr", t!"Maj", t!"Jun", t!"Jul", t!"Awg", t!"Sep", t!"Okt", t!"Now", t!"Dec"]
    days := [t!"Njeźela", t!"Pónjeźele", t!"Wałtora", t!"Srjoda", t!"Stwórtk", t!"Pětk", t!"Sobota"]
    am := t!"dopołdnja"
    pm := t!"wótpołdnja"
    bigAm := t!"dopołdnja"
    bigPm := t!"wótpołdnja"
    midnight := t!"połnoc"
    noon := t!"połdnjo" }
  pluralForms := c!"nplurals=4; plural=(n%100==1 ? 0 : n%100==2 ? 1 : n%100==3 || n%100==4 ? 2 : 3);"
  forms := [[true, true, true, true]]

/-- /repo/humanize/locale/el/locale.go:14-29; /repo/humanize/locale/el/django.po (Plural-Forms: line 29). -/
def loc_el : Shipped where
  dir := b!"el"
  lang := b!"el"
  format := some ⟨t!"d/m/Y", t!"P", t!"d/m/Y P", t!"F Y", t!"j F", t!"d/m/Y", t!"d/m/Y P", 0⟩
  texts := {
    months := [t!"Ιανουάριος", t!"Φεβρουάριος", t!"Μάρτιος", t!"Απρίλιος", t!"Μάιος", t!"Ιούνιος", t!"Ιούλιος", t!"Αύγουστος", t!"Σεπτέμβριος", t!"Οκτώβριος", t!"Νοέμβριος", t!"Δεκέμβριος"]
    alternative := [t!"Ιανουαρίου", t!"Φεβρουαρίου", t!"Μαρτίου", t!"Απριλίου", t!"Μαΐου", t!"Ιουνίου", t!"Ιουλίου", t!"Αυγούστου", t!"Σεπτεμβρίου", t!"Οκτωβρίου", t!"Νοεμβρίου", t!"Δεκεμβρίου"]
    abbreviated := [t!"Ιαν.", t!"Φεβ.", t!"Μάρτιος", t!"Απρίλ.", t!"Μάιος", t!"Ιούν.", t!"Ιούλ.", t!"Αύγ.", t!"Σεπτ.", t!"Οκτ.", t!"Νοέμ.", t!"Δεκ."]
    short := [t!"Ιαν", t!"Φεβ", t!"Μάρ", t!"Απρ", t!"Μάι", t!"Ιούν", t!"Ιούλ", t!"Αύγ", t!"Σεπ", t!"Οκτ", t!"Νοέ", t!"Δεκ"]
    days := [t!"Κυριακή", t!"Δευτέρα", t!"Τρίτη", t!"Τετάρτη", t!"Πέμπτη", t!"Παρασκευή", t!"Σάββατο"]
    am := t!"πμ."
    pm := t!"μμ."
    bigAm := t!"ΠΜ"
    bigPm := t!"ΜΜ"
    midnight := t!"μεσάνυχτα"
    noon := t!"μεσημέρι" }
  pluralForms := c!"nplurals=2; plural=(n != 1);"
  forms := [[true, true]]

/-- /repo/humanize/locale/enAU/locale.go:14-29; /repo/humanize/locale/enAU/django.po (Plural-Forms: line 18). -/
def loc_enAU : Shipped where
  dir := b!"enAU"
  lang := b!"en-AU"
  format := some ⟨t!"j M Y", t!"P", t!"j M Y, P", t!"F Y", t!"j F", t!"d/m/Y", t!"d/m/Y P", 0⟩
  texts := {
    months := [t!"January", t!"February", t!"March", t!"April", t!"May", t!"June", t!"July", t!"August", t!"September", t!"October", t!"November", t!"December"]
    alternative := [t!"January", t!"February", t!"March", t!"April", t!"May", t!"June", t!"July", t!"August", t!"September", t!"October", t!"November", t!"December"]
    abbreviated := [t!"Jan.", t!"Feb.", t!"March", t!"April", t!"May", t!"June", t!"July", t!"Aug.", t!"Sept.", t!"Oct.", t!"Nov.", t!"Dec."]
    short := [t!"Jan", t!"Feb", t!"Mar", t!"Apr", t!"May", t!"Jun", t!"Jul", t!"Aug", t!"Sep", t!"Oct", t!"Nov", t!"Dec"]
    days := [t!"Sunday", t!"Monday", t!"Tuesday", t!"Wednesday", t!"Thursday", t!"Friday", t!"Saturday"]
    am := t!"a.m."
    pm := t!"p.m."
    bigAm := t!"AM"
    bigPm := t!"PM"
    midnight := t!"midnight"
    noon := t!"noon" }
  pluralForms := c!"nplurals=2; plural=(n != 1);"
  forms := [[true, true]]

/-- /repo/humanize/locale/enGB/locale.go:14-29; /repo/humanize/locale/enGB/django.po (Plural-Forms: line 19). -/
def loc_enGB : Shipped where
  dir := b!"enGB"
  lang := b!"en-GB"
  format := some ⟨t!"j M Y", t!"P", t!"j M Y, P", t!"F Y", t!"j F", t!"d/m/Y", t!"d/m/Y P", 1⟩
  texts := {
    months := [t!"January", t!"February", t!"March", t!"April", t!"May", t!"June", t!"July", t!"August", t!"September", t!"October", t!"November", t!"December"]
    alternative := [t!"January", t!"February", t!"March", t!"April", t!"May", t!"June", t!"July", t!"August", t!"September", t!"October", t!"November", t!"December"]
    abbreviated := [t!"Jan.", t!"Feb.", t!"March", t!"April", t!"May", t!"June", t!"July", t!"Aug.", t!"Sept.", t!"Oct.", t!"Nov.", t!"Dec."]
    short := [t!"Jan", t!"Feb", t!"Mar", t!"Apr", t!"May", t!"Jun", t!"Jul", t!"Aug", t!"Sep", t!"Oct", t!"Nov", t!"Dec"]
    days := [t!"Sunday", t!"Monday", t!"Tuesday", t!"Wednesday", t!"Thursday", t!"Friday", t!"Saturday"]
    am := t!"a.m."
    pm := t!"p.m."
    bigAm := t!"AM"
    bigPm := t!"PM"
    midnight := t!"midnight"
    noon := t!"noon" }
  pluralForms := c!"nplurals=2; plural=(n != 1);"
  forms := [[true, true]]

/-- /repo/humanize/locale/eo/locale.go:14-29; /repo/humanize/locale/eo/django.po (Plural-Forms: line 26). -/
def loc_eo : Shipped where
  dir := b!"eo"
  lang := b!"eo"
  format := some ⟨t!"j\\-\\a \\d\\e F Y", t!"H:i", t!"j\\-\\a \\d\\e F Y\\, \\j\\e H:i", t!"F \\d\\e Y", t!"j\\-\\a \\d\\e F", t!"Y-m-d", t!"Y-m-d H:i", 1⟩
  texts := {
    months := [t!"januaro", t!"februaro", t!"marto", t!"aprilo", t!"majo", t!"junio", t!"julio", t!"aŭgusto", t!"septembro", t!"oktobro", t!"novembro", t!"decembro"]
    alternative := [t!"Januaro", t!"Februaro", t!"Marto", t!"Aprilo", t!"Majo", t!"Junio", t!"Julio", t!"Aŭgusto", t!"Septembro", t!"Oktobro", t!"Novembro", t!"Decembro"]
    abbreviated := [t!"jan.", t!"feb.", t!"mar.", t!"apr.", t!"majo", t!"jun.", t!"jul.", t!"aŭg.", t!"sept.", t!"okt.", t!"nov.", t!"dec."]
    short := [t!"Jan", t!"Feb", t!"Mar", t!"Apr", t!"Maj", t!"Jun", t!"Jul", t!"Aŭg", t!"Sep", t!"Okt", t!"Nov", t!"Dec"]
    days := [t!"dimanĉo", t!"lundo", t!"mardo", t!"merkredo", t!"ĵaŭdo", t!"vendredo", t!"sabato"]
    am := t!"atm"
    pm := t!"ptm"
    bigAm := t!"ATM"
    bigPm := t!"PTM"
    midnight := t!"noktomezo"
    noon := t!"tagmezo" }
  pluralForms := c!"nplurals=2; plural=(n != 1);"
  forms := [[true, true]]

/-- /repo/humanize/locale/es/locale.go:14-29; /repo/humanize/locale/es/django.po (Plural-Forms: line 59). -/
def loc_es : Shipped where
  dir := b!"es"
  lang := b!"es"
  format := some ⟨t!"j \\d\\e F \\d\\e Y", t!"H:i", t!"j \\d\\e F \\d\\e Y \\a \\l\\a\\s H:i", t!"F \\d\\e Y", t!"j \\d\\e F", t!"d/m/Y", t!"d/m/Y H:i", 1⟩
  texts := {
    months := [t!"enero", t!"febrero", t!"marzo", t!"abril", t!"mayo", t!"junio", t!"julio", t!"agosto", t!"septiembre", t!"octubre", t!"noviembre", t!"diciembre"]
    alternative := [t!"enero", t!"febrero", t!"marzo", t!"abril", t!"mayo", t!"junio", t!"julio", t!"agosto", t!"septiembre", t!"octubre", t!"noviembre", t!"diciembre"]
    abbreviated := [t!"Ene.", t!"Feb.", t!"marzo", t!"abril", t!"mayo", t!"junio", t!"julio", t!"ago.", t!"sept.", t!"oct.", t!"nov.", t!"dic."]
    short := [t!"Ene", t!"Feb", t!"Mar", t!"Abr", t!"May", t!"Jun", t!"Jul", t!"Ago", t!"Sep", t!"Oct", t!"Nov", t!"Dic"]
    days := [t!"domingo", t!"lunes", t!"martes", t!"miércoles", t!"jueves", t!"viernes", t!"sábado"]
    am := t!"a.m."
    pm := t!"p.m."
    bigAm := t!"AM"
    bigPm := t!"PM"
    midnight := t!"medianoche"
    noon := t!"mediodía" }
  pluralForms := c!"nplurals=3; plural=n == 1 ? 0 : n != 0 && n % 1000000 == 0 ? 1 : 2;"
  forms := [[true, true, true]]

/-- /repo/humanize/locale/esAR/locale.go:14-29; /repo/humanize/locale/esAR/django.po (Plural-Forms: line 21). -/
def loc_esAR : Shipped where
  dir := b!"esAR"
  lang := b!"es-AR"
  format := some ⟨t!"j N Y", t!"H:i", t!"j N Y H:i", t!"F Y", t!"j \\d\\e F", t!"d/m/Y", t!"d/m/Y H:i", 0⟩
  texts := {
    months := [t!"enero", t!"febrero", t!"marzo", t!"abril", t!"mayo", t!"junio", t!"julio", t!"agosto", t!"setiembre", t!"octubre", t!"noviembre", t!"diciembre"]
    alternative := [t!"enero", t!"febrero", t!"marzo", t!"abril", t!"mayo", t!"junio", t!"julio", t!"agosto", t!"setiembre", t!"octubre", t!"noviembre", t!"diciembre"]
    abbreviated := [t!"Enero", t!"Feb.", t!"Marzo", t!"Abril", t!"Mayo", t!"Junio", t!"Julio", t!"Ago.", t!"Set.", t!"Oct.", t!"Nov.", t!"Dic."]
    short := [t!"Ene", t!"Feb", t!"Mar", t!"Abr", t!"May", t!"Jun", t!"Jul", t!"Ago", t!"Set", t!"Oct", t!"Nov", t!"Dic"]
    days := [t!"Domingo", t!"lunes", t!"martes", t!"miércoles", t!"jueves", t!"viernes", t!"sábado"]
    am := t!"a.m."
    pm := t!"p.m."
    bigAm := t!"AM"
    bigPm := t!"PM"
    midnight := t!"medianoche"
    noon := t!"mediodía" }
  pluralForms := c!"nplurals=2; plural=(n != 1);"
  forms := [[true, true, true], [true, true]]

/-- /repo/humanize/locale/esCO/locale.go:14-29; /repo/humanize/locale/esCO/django.po (Plural-Forms: line 18). -/
def loc_esCO : Shipped where
  dir := b!"esCO"
  lang := b!"es-CO"
  format := some ⟨t!"j \\d\\e F \\d\\e Y", t!"H:i", t!"j \\d\\e F \\d\\e Y \\a \\l\\a\\s H:i", t!"F \\d\\e Y", t!"j \\d\\e F", t!"d/m/Y", t!"d/m/Y H:i", 1⟩
  texts := {
    months := [t!"Enero", t!"Febrero", t!"Marzo", t!"Abril", t!"Mayo", t!"Junio", t!"Julio", t!"Agosto", t!"Septiembre", t!"Octubre", t!"Noviembre", t!"Diciembre"]
    alternative := [t!"Enero", t!"Febrero", t!"Marzo", t!"Abril", t!"Mayo", t!"Junio", t!"Julio", t!"Agosto", t!"Septiembre", t!"Octubre", t!"Noviembre", t!"Diciembre"]
    abbreviated := [t!"Ene.", t!"Feb.", t!"Marzo", t!"Abril", t!"Mayo", t!"Junio", t!"Julio", t!"Ago.", t!"Sep.", t!"Oct.", t!"Nov.", t!"Dic."]
    short := [t!"Ene", t!"Feb", t!"Mar", t!"Abr", t!"May", t!"Jun", t!"Jul", t!"Ago", t!"Sep", t!"Oct", t!"Nov", t!"Dic"]
    days := [t!"Domingo", t!"Lunes", t!"Martes", t!"Miércoles", t!"Jueves", t!"Viernes", t!"Sábado"]
    am := t!"a.m."
    pm := t!"p.m."
    bigAm := t!"AM"
    bigPm := t!"PM"
    midnight := t!"medianoche"
    noon := t!"mediodía" }
  pluralForms := c!"nplurals=2; plural=(n != 1);"
  forms := [[true, true]]

/-- /repo/humanize/locale/esMX/locale.go:14-29; /repo/humanize/locale/esMX/django.po (Plural-Forms: line 22). -/
def loc_esMX : Shipped where
  dir := b!"esMX"
  lang := b!"es-MX"
  format := some ⟨t!"j \\d\\e F \\d\\e Y", t!"H:i", t!"j \\d\\e F \\d\\e Y \\a \\l\\a\\s H:i", t!"F \\d\\e Y", t!"j \\d\\e F", t!"d/m/Y", t!"d/m/Y H:i", 1⟩
  texts := {
    months := [t!"Enero", t!"Febrero", t!"Marzo", t!"Abril", t!"Mayo", t!"Junio", t!"Julio", t!"Agosto", t!"Septiembre", t!"Octubre", t!"Noviembre", t!"Diciembre"]
    alternative := [t!"Enero", t!"Febrero", t!"Marzo", t!"Abril", t!"Mayo", t!"Junio", t!"Julio", t!"Agosto", t!"Septiembre", t!"Octubre", t!"Noviembre", t!"Diciembre"]
    abbreviated := [t!"Ene.", t!"Feb.", t!"Marzo", t!"Abril", t!"Mayo", t!"Junio", t!"Julio", t!"Ago.", t!"Sep.", t!"Oct.", t!"Nov.", t!"Dic."]
    short := [t!"Ene", t!"Feb", t!"Mar", t!"Abr", t!"May", t!"Jun", t!"Jul", t!"Ago", t!"Sep", t!"Oct", t!"Nov", t!"Dic"]
    days := [t!"Domingo", t!"Lunes", t!"Martes", t!"Miércoles", t!"Jueves", t!"Viernes", t!"Sábado"]
    am := t!"a.m."
    pm := t!"p.m."
    bigAm := t!"AM"
    bigPm := t!"PM"
    midnight := t!"medianoche"
    noon := t!"mediodía" }
  pluralForms := c!"nplurals=2; plural=(n != 1);"
  forms := [[true, true]]

/-- /repo/humanize/locale/esVE/locale.go:14-19; /repo/humanize/locale/esVE/django.po (Plural-Forms: line 21). -/
def loc_esVE : Shipped where
  dir := b!"esVE"
  lang := b!"es-VE"
  format := none
  texts := {
    months := [t!"Enero", t!"Febrero", t!"Marzo", t!"Abril", t!"Mayo", t!"Junio", t!"Julio", t!"Agosto", t!"Septiembre", t!"Octubre", t!"Noviembre", t!"Diciembre"]
    alternative := [t!"Enero", t!"Febrero", t!"Marzo", t!"Abril", t!"Mayo", t!"Junio", t!"Julio", t!"Agosto", t!"Septiembre", t!"Octubre", t!"Noviembre", t!"Diciembre"]
    abbreviated := [t!"Ene.", t!"Feb.", t!"Marzo", t!"Abril", t!"Mayo", t!"Junio", t!"Julio", t!"Ago.", t!"Sep.", t!"Oct.", t!"Nov.", t!"Dic."]
    short := [t!"Ene", t!"Feb", t!"Mar", t!"Abr", t!"May", t!"Jun", t!"Jul", t!"Ago", t!"Sep", t!"Oct", t!"Nov", t!"Dic"]
    days := [t!"Domingo", t!"Lunes", t!"Martes", t!"Miércoles", t!"Jueves", t!"Viernes", t!"Sábado"]
    am := t!"a.m."
    pm := t!"p.m."
    bigAm := t!"AM"
    bigPm := t!"PM"
    midnight := t!"medianoche"
    noon := t!"mediodía" }
  pluralForms := c!"nplurals=2; plural=(n != 1);"
  forms := [[true, true]]

/-- /repo/humanize/locale/et/locale.go:14-25; /repo/humanize/locale/et/django.po (Plural-Forms: line 25). -/
def loc_et : Shipped where
  dir := b!"et"
  lang := b!"et"
  format := some ⟨t!"j. F Y", t!"G:i", [], [], t!"j. F", t!"d.m.Y", [], 0⟩
  texts := {
    months := [t!"jaanuar", t!"veebruar", t!"märts", t!"aprill", t!"mai", t!"juuni", t!"juuli", t!"august", t!"september", t!"oktoober", t!"november", t!"detsember"]
    alternative := [t!"jaanuar", t!"veebruar", t!"märts", t!"aprill", t!"mai", t!"juuni", t!"juuli", t!"august", t!"september", t!"oktoober", t!"november", t!"detsember"]
    abbreviated := [t!"jaan.", t!"veeb.", t!"mär.", t!"apr.", t!"mai", t!"juuni", t!"juuli", t!"aug.", t!"sept.", t!"okt.", t!"nov.", t!"dets."]
    short := [t!"Jaan", t!"Veeb", t!"Märts", t!"Apr", t!"Mai", t!"Jun", t!"Jul", t!"Aug", t!"Sept", t!"Okt", t!"Nov", t!"Dets"]
    days := [t!"pühapäev", t!"esmaspäev", t!"teisipäev", t!"kolmapäev", t!"neljapäev", t!"reede", t!"laupäev"]
    am := t!"e.l."
    pm := t!"p.l."
    bigAm := t!"EL"
    bigPm := t!"PL"
    midnight := t!"südaöö"
    noon := t!"keskpäev" }
  pluralForms := c!"nplurals=2; plural=(n != 1);"
  forms := [[true, true]]

/-- /repo/humanize/locale/eu/locale.go:14-29; /repo/humanize/locale/eu/django.po (Plural-Forms: line 27). -/
def loc_eu : Shipped where
  dir := b!"eu"
  lang := b!"eu"
  format := some ⟨t!"Y\\k\\o N j\\a", t!"H:i", t!"Y\\k\\o N j\\a, H:i", t!"Y\\k\\o F", t!"F\\r\\e\\n j\\a", t!"Y-m-d", t!"Y-m-d H:i", 1⟩
  texts := {
    months := [t!"urtarrila", t!"otsaila", t!"martxoa", t!"apirila", t!"maiatza", t!"ekaina", t!"uztaila", t!"abuztua", t!"iraila", t!"urria", t!"azaroa", t!"abendua"]
    alternative := [t!"urtarrila", t!"otsaila", t!"martxoa", t!"apirila", t!"maiatza", t!"ekaina", t!"uztaila", t!"abuztua", t!"iraila", t!"urria", t!"azaroa", t!"abendua"]
    abbreviated := [t!"urt.", t!"ots.", t!"mar.", t!"api.", t!"mai.", t!"eka.", t!"uzt.", t!"abu.", t!"ira.", t!"urr.", t!"aza.", t!"abe."]
    short := [t!"Urt", t!"Ots", t!"Mar", t!"Api", t!"Mai", t!"Eka", t!"Uzt", t!"Abu", t!"Ira", t!"Urr", t!"Aza", t!"Abe"]
    days := [t!"igandea", t!"astelehena", t!"asteartea", t!"asteazkena", t!"osteguna", t!"ostirala", t!"larunbata"]
    am := t!"a.m."
    pm := t!"p.m."
    bigAm := t!"AM"
    bigPm := t!"PM"
    midnight := t!"gauerdia"
    noon := t!"eguerdia" }
  pluralForms := c!"nplurals=2; plural=(n != 1);"
  forms := [[true, true]]

/-- /repo/humanize/locale/fa/locale.go:14-29; /repo/humanize/locale/fa/django.po (Plural-Forms: line 37). -/
def loc_fa : Shipped where
  dir := b!"fa"
  lang := b!"fa"
  format := some ⟨t!"j F Y", t!"G:i", t!"j F Y، ساعت G:i", t!"F Y", t!"j F", t!"Y/n/j", t!"Y/n/j، G:i", 6⟩
  texts := {
    months := [t!"ژانویه", t!"فوریه", t!"مارس", t!"آوریل", t!"مه", t!"ژوئن", t!"ژوئیه", t!"اوت", t!"سپتامبر", t!"اکتبر", t!"نوامبر", t!"دسامبر"]
    alternative := [t!"ژانویه", t!"فوریه", t!"مارس", t!"آوریل", t!"مه", t!"ژوئن", t!"جولای", t!"اوت", t!"سپتامبر", t!"اکتبر", t!"نوامبر", t!"دسامبر"]
    abbreviated := [t!"ژانویه", t!"فوریه", t!"مارس", t!"آوریل", t!"مه", t!"ژوئن", t!"جولای", t!"اوت", t!"سپتامبر", t!"اکتبر", t!"نوامبر", t!"دسامبر"]
    short := [t!"ژانویه", t!"فوریه", t!"مارس", t!"آوریل", t!"مه", t!"ژوئن", t!"ژوئیه", t!"اوت", t!"سپتامبر", t!"اکتبر", t!"نوامبر", t!"دسامبر"]
    days := [t!"یکشنبه", t!"دوشنبه", t!"سه شنبه", t!"چهارشنبه", t!"پنجشنبه", t!"جمعه", t!"شنبه"]
    am := t!"صبح"
    pm := t!"ب.ظ."
    bigAm := t!"صبح"
    bigPm := t!"بعد از ظهر"
    midnight := t!"نیمه شب"
    noon := t!"ظهر" }
  pluralForms := c!"nplurals=2; plural=(n > 1);"
  forms := [[true, true]]

/-- /repo/humanize/locale/fi/locale.go:14-29; /repo/humanize/locale/fi/django.po (Plural-Forms: line 23). -/
def loc_fi : Shipped where
  dir := b!"fi"
  lang := b!"fi"
  format := some ⟨t!"j. E Y", t!"G.i", t!"j. E Y \\k\\e\\l\\l\\o G.i", t!"F Y", t!"j. F", t!"j.n.Y", t!"j.n.Y G.i", 1⟩
  texts := {
    months := [t!"tammikuu", t!"helmikuu", t!"maaliskuu", t!"huhtikuu", t!"toukokuu", t!"kesäkuu", t!"heinäkuu", t!"elokuu", t!"syyskuu", t!"lokakuu", t!"marraskuu", t!"joulukuu"]
    alternative := [t!"tammikuuta", t!"helmikuuta", t!"maaliskuuta", t!"huhtikuuta", t!"toukokuuta", t!"kesäkuuta", t!"heinäkuuta", t!"elokuuta", t!"syyskuuta", t!"lokakuuta", t!"marraskuuta", t!"joulukuuta"]
    abbreviated := [t!"tammi", t!"helmi", t!"maalis", t!"huhti", t!"touko", t!"kesä", t!"heinä", t!"elo", t!"syys", t!"loka", t!"marras", t!"joulu"]
    short := [t!"Tam", t!"Hel", t!"Maa", t!"Huh", t!"Tou", t!"Kes", t!"Hei", t!"Elo", t!"Syy", t!"Lok", t!"Mar", t!"Jou"]
    days := [t!"sunnuntai", t!"maanantai", t!"tiistai", t!"keskiviikko", t!"torstai", t!"perjantai", t!"lauantai"]
    am := t!"ap"
    pm := t!"ip"
    bigAm := t!"AP"
    bigPm := t!"IP"
    midnight := t!"keskiyö"
    noon := t!"keskipäivä" }
  pluralForms := c!"nplurals=2; plural=(n != 1);"
  forms := [[true, true]]

/-- /repo/humanize/locale/fr/locale.go:14-29; /repo/humanize/locale/fr/django.po (Plural-Forms: line 24). -/
def loc_fr : Shipped where
  dir := b!"fr"
  lang := b!"fr"
  format := some ⟨t!"j F Y", t!"H:i", t!"j F Y H:i", t!"F Y", t!"j F", t!"d/m/Y", t!"d/m/Y H:i", 1⟩
  texts := {
    months := [t!"janvier", t!"février", t!"mars", t!"avril", t!"mai", t!"juin", t!"juillet", t!"août", t!"septembre", t!"octobre", t!"novembre", t!"décembre"]
    alternative := [t!"Janvier", t!"Février", t!"Mars", t!"Avril", t!"Mai", t!"Juin", t!"Juillet", t!"Août", t!"Septembre", t!"Octobre", t!"Novembre", t!"Décembre"]
    abbreviated := [t!"jan.", t!"fév.", t!"mars", t!"avr.", t!"mai", t!"juin", t!"juil.", t!"août", t!"sept.", t!"oct.", t!"nov.", t!"déc."]
    short := [t!"Jan", t!"Fév", t!"Mar", t!"Avr", t!"Mai", t!"Jui", t!"Jul", t!"Aoû", t!"Sep", t!"Oct", t!"Nov", t!"Déc"]
    days := [t!"dimanche", t!"lundi", t!"mardi", t!"mercredi", t!"jeudi", t!"vendredi", t!"samedi"]
    am := t!"matin"
    pm := t!"après-midi"
    bigAm := t!"Matin"
    bigPm := t!"Après-midi"
    midnight := t!"minuit"
    noon := t!"midi" }
  pluralForms := c!"nplurals=2; plural=(n > 1);"
  forms := [[true, true, true]]

/-- /repo/humanize/locale/fy/locale.go:14-19; /repo/humanize/locale/fy/django.po (Plural-Forms: line 17). -/
def loc_fy : Shipped where
  dir := b!"fy"
  lang := b!"fy"
  format := none
  texts := {
    months := [t!"January", t!"February", t!"March", t!"April", t!"May", t!"June", t!"July", t!"August", t!"September", t!"October", t!"November", t!"December"]
    alternative := [t!"January", t!"February", t!"March", t!"April", t!"May", t!"June", t!"July", t!"August", t!"September", t!"October", t!"November", t!"December"]
    abbreviated := [t!"Jan.", t!"Feb.", t!"March", t!"April", t!"May", t!"June", t!"July", t!"Aug.", t!"Sept.", t!"Oct.", t!"Nov.", t!"Dec."]
    short := [t!"Jan", t!"Feb", t!"Mar", t!"Apr", t!"May", t!"Jun", t!"Jul", t!"Aug", t!"Sep", t!"Oct", t!"Nov", t!"Dec"]
    days := [t!"Sunday", t!"Monday", t!"Tuesday", t!"Wednesday", t!"Thursday", t!"Friday", t!"Saturday"]
    am := t!"a.m."
    pm := t!"p.m."
    bigAm := t!"AM"
    bigPm := t!"PM"
    midnight := t!"midnight"
    noon := t!"noon" }
  pluralForms := c!"nplurals=2; plural=(n != 1);"
  forms := []

/-- /repo/humanize/locale/ga/locale.go:14-25; /repo/humanize/locale/ga/django.po (Plural-Forms: line 25). -/
def loc_ga : Shipped where
  dir := b!"ga"
  lang := b!"ga"
  format := some ⟨t!"j F Y", t!"H:i", [], [], t!"j F", t!"j M Y", [], 0⟩
  texts := {
    months := [t!"Eanáir", t!"Feabhra", t!"Márta", t!"Aibreán", t!"Bealtaine", t!"Meitheamh", t!"Iúil", t!"Lúnasa", t!"Meán Fómhair", t!"Deireadh Fómhair", t!"Samhain", t!"Nollaig"]
    alternative := [t!"Mí Eanáir", t!"Mí Feabhra", t!"Mí na Márta", t!"Mí Aibreáin", t!"Mí na Bealtaine", t!"Mí an Mheithimh", t!"Mí Iúil", t!"Mí Lúnasa", t!"Mí Mheán Fómhair", t!"Mí Dheireadh Fómhair", t!"Mí na Samhna", t!"Mí na Nollag"]
    abbreviated := [t!"Ean.", t!"Feabh.", t!"Márta", t!"Aib.", t!"Beal.", t!"Meith.", t!"Iúil", t!"Lún.", t!"MFómh.", t!"DFómh.", t!"Samh.", t!"Noll."]
    short := [t!"Ean", t!"Feabh", t!"Márta", t!"Aib", t!"Beal", t!"Meith", t!"Iúil", t!"Lún", t!"Mfómh", t!"Dfómh", t!"Samh", t!"Noll"]
    days := [t!"Dé Domhnaigh", t!"Dé Luain", t!"Dé Máirt", t!"Dé Céadaoin", t!"Déardaoin", t!"Dé hAoine", t!"Dé Sathairn"]
    am := t!"r.n."
    pm := t!"i.n."
    bigAm := t!"RN"
    bigPm := t!"IN"
    midnight := t!"meán oíche"
    noon := t!"nóin" }
  pluralForms := c!"nplurals=5; plural=(n==1 ? 0 : n==2 ? 1 : n<7 ? 2 : n<11 ? 3 : 4);"
  forms := [[true, true, true, true, true]]

/-- /repo/humanize/locale/gd/locale.go:14-28; /repo/humanize/locale/gd/django.po (Plural-Forms: line 21). -/
def loc_gd : Shipped where
  dir := b!"gd"
  lang := b!"gd"
  format := some ⟨t!"j F Y", t!"h:ia", t!"j F Y h:ia", [], t!"j F", t!"j M Y", t!"j M Y h:ia", 1⟩
  texts := {
    months := [t!"Am Faoilleach", t!"An Gearran", t!"Am Màrt", t!"An Giblean", t!"An Cèitean", t!"An t-Ògmhios", t!"An t-Iuchar", t!"An Lùnastal", t!"An t-Sultain", t!"An Dàmhair", t!"An t-Samhain", t!"An Dùbhlachd"]
    alternative := [t!"Am Faoilleach", t!"An Gearran", t!"Am Màrt", t!"An Giblean", t!"An Cèitean", t!"An t-Ògmhios", t!"An t-Iuchar", t!"An Lùnastal", t!"An t-Sultain", t!"An Dàmhair", t!"An t-Samhain", t!"An Dùbhlachd"]
    abbreviated := [t!"Faoi", t!"Gearr", t!"Màrt", t!"Gibl", t!"Cèit", t!"Ògmh", t!"Iuch", t!"Lùna", t!"Sult", t!"Dàmh", t!"Samh", t!"Dùbh"]
    short := [t!"Faoi", t!"Gearr", t!"Màrt", t!"Gibl", t!"Cèit", t!"Ògmh", t!"Iuch", t!"Lùna", t!"Sult", t!"Dàmh", t!"Samh", t!"Dùbh"]
    days := [t!"DiDòmhnaich", t!"DiLuain", t!"DiMàirt", t!"DiCiadain", t!"DiarDaoin", t!"DihAoine", t!"DiSathairne"]
    am := t!"m"
    pm := t!"f"
    bigAm := t!"m"
    bigPm := t!"f"
    midnight := t!"meadhan-oidhche"
    noon := t!"meadhan-latha" }
  pluralForms := c!"nplurals=4; plural=(n==1 || n==11) ? 0 : (n==2 || n==12) ? 1 : (n > 2 && n < 20) ? 2 : 3;"
  forms := [[true, true, true, true]]

/-- /repo/humanize/locale/gl/locale.go:14-29; /repo/humanize/locale/gl/django.po (Plural-Forms: line 24). -/
def loc_gl : Shipped where
  dir := b!"gl"
  lang := b!"gl"
  format := some ⟨t!"j \\d\\e F \\d\\e Y", t!"H:i", t!"j \\d\\e F \\d\\e Y \\á\\s H:i", t!"F \\d\\e Y", t!"j \\d\\e F", t!"d-m-Y", t!"d-m-Y, H:i", 1⟩
  texts := {
    months := [t!"Xaneiro", t!"Febreiro", t!"Marzo", t!"Abril", t!"Maio", t!"Xuño", t!"Xullo", t!"Agosto", t!"Setembro", t!"Outubro", t!"Novembro", t!"Decembro"]
    alternative := [t!"Xaneiro", t!"Febreiro", t!"Marzo", t!"Abril", t!"Maio", t!"Xuño", t!"Xullo", t!"Agosto", t!"Setembro", t!"Outubro", t!"Novembro", t!"Decembro"]
    abbreviated := [t!"Xan.", t!"Feb.", t!"Marzo", t!"Abril", t!"Maio", t!"Xuño", t!"Xullo", t!"Ago.", t!"Set.", t!"Out.", t!"Nov.", t!"Dec."]
    short := [t!"Xan", t!"Feb", t!"Mar", t!"Abr", t!"Mai", t!"Xuñ", t!"Xul", t!"Ago", t!"Set", t!"Out", t!"Nov", t!"Dec"]
    days := [t!"Domingo", t!"Luns", t!"Martes", t!"Mércores", t!"Xoves", t!"Venres", t!"Sábado"]
    am := t!"a.m."
    pm := t!"p.m."
    bigAm := t!"AM"
    bigPm := t!"PM"
    midnight := t!"medianoite"
    noon := t!"mediodía" }
  pluralForms := c!"nplurals=2; plural=(n != 1);"
  forms := [[true, true]]

/-- /repo/humanize/locale/he/locale.go:14-28; /repo/humanize/locale/he/django.po (Plural-Forms: line 24). -/
def loc_he : Shipped where
  dir := b!"he"
  lang := b!"he"
  format := some ⟨t!"j בF Y", t!"H:i", t!"j בF Y H:i", t!"F Y", t!"j בF", t!"d/m/Y", t!"d/m/Y H:i", 0⟩
  texts := {
    months := [t!"ינואר", t!"פברואר", t!"מרץ", t!"אפריל", t!"מאי", t!"יוני", t!"יולי", t!"אוגוסט", t!"ספטמבר", t!"אוקטובר", t!"נובמבר", t!"דצמבר"]
    alternative := [t!"ינואר", t!"פברואר", t!"מרץ", t!"אפריל", t!"מאי", t!"יוני", t!"יולי", t!"אוגוסט", t!"ספטמבר", t!"אוקטובר", t!"נובמבר", t!"דצמבר"]
    abbreviated := [t!"יאנ'", t!"פבר'", t!"מרץ", t!"אפריל", t!"מאי", t!"יוני", t!"יולי", t!"אוג'", t!"ספט'", t!"אוק'", t!"נוב'", t!"דצמ'"]
    short := [t!"ינו", t!"פבר", t!"מרץ", t!"אפר", t!"מאי", t!"יונ", t!"יול", t!"אוג", t!"ספט", t!"אוק", t!"נוב", t!"דצמ"]
    days := [t!"ראשון", t!"שני", t!"שלישי", t!"רביעי", t!"חמישי", t!"שישי", t!"שבת"]
    am := t!"בבוקר"
    pm := t!"אחר הצהריים"
    bigAm := t!"בבוקר"
    bigPm := t!"אחר הצהריים"
    midnight := t!"חצות"
    noon := t!"12 בצהריים" }
  pluralForms := c!"nplurals=4; plural=(n == 1 && n % 1 == 0) ? 0 : (n == 2 && n % 1 == 0) ? 1: (n % 10 == 0 && n % 1 == 0 && n > 10) ? 2 : 3;"
  forms := [[true, true, true], [true, true, true, true]]

/-- /repo/humanize/locale/hi/locale.go:14-25; /repo/humanize/locale/hi/django.po (Plural-Forms: line 22). -/
def loc_hi : Shipped where
  dir := b!"hi"
  lang := b!"hi"
  format := some ⟨t!"j F Y", t!"g:i A", [], [], t!"j F", t!"d-m-Y", [], 0⟩
  texts := {
    months := [t!"जनवरी", t!"फ़रवरी", t!"मार्च", t!"अप्रैल", t!"मई", t!"जून", t!"जुलाई", t!"अगस्त", t!"सितमबर", t!"अक्टूबर", t!"नवमबर", t!"दिसमबर"]
    alternative := [t!"जनवरी", t!"फरवरी", t!"मार्च", t!"अप्रैल", t!"मई", t!"जून", t!"जुलाई", t!"अगस्त", t!"सितंबर", t!"अक्टूबर", t!"नवंबर", t!"दिसंबर"]
    abbreviated := [t!"जनवरी.", t!"फ़रवरी.", t!"मार्च", t!"अप्रैल", t!"मई", t!"जून", t!"जुलाई", t!"अग.", t!"सितम्बर.", t!"अक्टूबर", t!"नवम्बर.", t!"दिसम्बर"]
    short := [t!"जन", t!"फ़र", t!"मा", t!"अप्र", t!"मई", t!"जून", t!"जुल", t!"अग", t!"सित", t!"अक्ट", t!"नव", t!"दिस्"]
    days := [t!"रविवार", t!"सोम‌वार", t!"मंगलवार", t!"बुधवार", t!"गुरूवार", t!"शुक्रवार", t!"शनिवार"]
    am := t!"बजे"
    pm := t!"बजे"
    bigAm := t!"बजे"
    bigPm := t!"बजे"
    midnight := t!"मध्यरात्री"
    noon := t!"दोपहर" }
  pluralForms := c!"nplurals=2; plural=(n != 1);"
  forms := [[true, true]]

/-- /repo/humanize/locale/hr/locale.go:14-29; /repo/humanize/locale/hr/django.po (Plural-Forms: line 26). -/
def loc_hr : Shipped where
  dir := b!"hr"
  lang := b!"hr"
  format := some ⟨t!"j. E Y.", t!"H:i", t!"j. E Y. H:i", t!"F Y.", t!"j. F", t!"j.m.Y.", t!"j.m.Y. H:i", 1⟩
  texts := {
    months := [t!"Siječanj", t!"Veljača", t!"Ožujak", t!"Travanj", t!"Svibanj", t!"Lipanj", t!"Srpanj", t!"Kolovoz", t!"Rujan", t!"Listopad", t!"Studeni", t!"Prosinac"]
    alternative := [t!"siječnja", t!"veljače", t!"ožujka", t!"travnja", t!"svibnja", t!"lipnja", t!"srpnja", t!"kolovoza", t!"rujna", t!"listopada", t!"studenoga", t!"prosinca"]
    abbreviated := [t!"Sij.", t!"Velj.", t!"Ožu.", t!"Tra.", t!"Svi.", t!"Lip.", t!"Srp.", t!"Kol.", t!"Ruj.", t!"Lis.", t!"Stu.", t!"Pro."]
    short := [t!"Sij.", t!"Velj.", t!"Ožu.", t!"Tra.", t!"Svi.", t!"Lip.", t!"Srp.", t!"Kol.", t!"Ruj.", t!"Lis.", t!"Stu.", t!"Pro."]
    days := [t!"Nedjelja", t!"Ponedjeljak", t!"Utorak", t!"Srijeda", t!"Četvrtak", t!"Petak", t!"Subota"]
    am := t!"ujutro"
    pm := t!"popodne"
    bigAm := t!"ujutro"
    bigPm := t!"popodne"
    midnight := t!"ponoć"
    noon := t!"podne" }
  pluralForms := c!"nplurals=3; plural=n%10==1 && n%100!=11 ? 0 : n%10>=2 && n%10<=4 && (n%100<10 || n%100>=20) ? 1 : 2;"
  forms := [[true, true, true]]

/-- /repo/humanize/locale/hsb/locale.go:14-19; /repo/humanize/locale/hsb/django.po (Plural-Forms: line 17). -/
def loc_hsb : Shipped where
  dir := b!"hsb"
  lang := b!"hsb"
  format := none
  texts := {
    months := [t!"Januar", t!"Februar", t!"Měrc", t!"Apryl", t!"Meja", t!"Junij", t!"Julij", t!"Awgust", t!"September", t!"Oktober", t!"Nowember", t!"December"]
    alternative := [t!"Januar", t!"Februar", t!"Měrc", t!"Apryl", t!"Meja", t!"Junij", t!"Julij", t!"Awgust", t!"September", t!"Oktober", t!"Nowember", t!"December"]
    abbreviated := [t!"Jan.", t!"Feb.", t!"Měrc", t!"Apryl", t!"Meja", t!"Junij", t!"Julij", t!"Awg.", t!"Sept.", t!"Okt.", t!"Now.", t!"Dec."]
    short := [t!"Jan.", t!"Feb.", t!"Měr.", t!"Apr.", t!"Mej.", t!"Jun.", t!"Jul.", t!"Awg.", t!"Sep.", t!"Okt.", t!"Now.", t!"Dec."]
    days := [t!"Njedźela", t!"Póndźela", t!"Wutora", t!"Srjeda", t!"Štwórtk", t!"Pjatk", t!"Sobota"]
    am := t!"dopołdnja"
    pm := t!"popołdnju"
    bigAm := t!"dopołdnja"
    bigPm := t!"popołdnju"
    midnight := t!"połnoc"
    noon := t!"připołdnjo" }
  pluralForms := c!"nplurals=4; plural=(n%100==1 ? 0 : n%100==2 ? 1 : n%100==3 || n%100==4 ? 2 : 3);"
  forms := [[true, true, true, true]]

/-- /repo/humanize/locale/hu/locale.go:14-29; /repo/humanize/locale/hu/django.po (Plural-Forms: line 28). -/
def loc_hu : Shipped where
  dir := b!"hu"
  lang := b!"hu"
  format := some ⟨t!"Y. F j.", t!"H:i", t!"Y. F j. H:i", t!"Y. F", t!"F j.", t!"Y.m.d.", t!"Y.m.d. H:i", 1⟩
  texts := {
    months := [t!"január", t!"február", t!"március", t!"április", t!"május", t!"június", t!"július", t!"augusztus", t!"szeptember", t!"október", t!"november", t!"december"]
    alternative := [t!"január", t!"február", t!"március", t!"április", t!"május", t!"június", t!"július", t!"augusztus", t!"szeptember", t!"október", t!"november", t!"december"]
    abbreviated := [t!"jan.", t!"febr.", t!"márc.", t!"ápr.", t!"máj.", t!"jún.", t!"júl.", t!"aug.", t!"szept.", t!"okt.", t!"nov.", t!"dec."]
    short := [t!"Jan", t!"Feb", t!"Már", t!"Ápr", t!"Máj", t!"Jún", t!"Júl", t!"Aug", t!"Sze", t!"Okt", t!"Nov", t!"Dec"]
    days := [t!"vasárnap", t!"hétfő", t!"kedd", t!"szerda", t!"csütörtök", t!"péntek", t!"szombat"]
    am := t!"de"
    pm := t!"du"
    bigAm := t!"DE"
    bigPm := t!"DU"
    midnight := t!"éjfél"
    noon := t!"dél" }
  pluralForms := c!"nplurals=2; plural=(n != 1);"
  forms := [[true, true]]

/-- /repo/humanize/locale/hy/locale.go:14-19; /repo/humanize/locale/hy/django.po (Plural-Forms: line 17). -/
def loc_hy : Shipped where
  dir := b!"hy"
  lang := b!"hy"
  format := none
  texts := {
    months := [t!"Հունվար", t!"Փետրվար", t!"Մարտ", t!"Ապրիլ", t!"Մայիս", t!"Հունիս", t!"Հուլիս", t!"Օգոստոս", t!"Սեպտեմբեր", t!"Հոկտեմբեր", t!"Նոյեմբեր", t!"Դեկտեմբեր"]
    alternative := [t!"Հունվար", t!"Փետրվար", t!"Մարտ", t!"Ապրիլ", t!"Մայիս", t!"Հունիս", t!"Հուլիս", t!"Օգոստոս", t!"Սեպտեմբեր", t!"Հոկտեմբեր", t!"Նոյեմբեր", t!"Դեկտեմբեր"]
    abbreviated := [t!"Հուն․", t!"Փետ․", t!"Մարտ", t!"Մարտ", t!"Մայիս", t!"Հունիս", t!"Հուլիս", t!"Օգոստ․", t!"Սեպտ․", t!"Հոկտ․", t!"Նոյ․", t!"Դեկ․"]
    short := [t!"Հուն", t!"Փետ", t!"Մար", t!"Ապր", t!"Մայ", t!"Հուն", t!"Հուլ", t!"Օգտ", t!"Սեպ", t!"Հոկ", t!"Նոյ", t!"Դեկ"]
    days := [t!"Կիրակի", t!"Երկուշաբթի", t!"Երեքշաբթի", t!"Չորեքշաբթի", t!"Հինգշաբթի", t!"Ուրբաթ", t!"Շաբաթ"]
    am := t!"a.m."
    pm := t!"p.m."
    bigAm := t!"AM"
    bigPm := t!"PM"
    midnight := t!"կեսգիշեր"
    noon := t!"կեսօր" }
  pluralForms := c!"nplurals=2; plural=(n != 1);"
  forms := [[true, true]]

/-- /repo/humanize/locale/ia/locale.go:14-19; /repo/humanize/locale/ia/django.po (Plural-Forms: line 17). -/
def loc_ia : Shipped where
  dir := b!"ia"
  lang := b!"ia"
  format := none
  texts := {
    months := [t!"januario", t!"februario", t!"martio", t!"april", t!"maio", t!"junio", t!"julio", t!"augusto", t!"septembre", t!"octobre", t!"novembre", t!"decembre"]
    alternative := [t!"Januario", t!"Februario", t!"Martio", t!"April", t!"Maio", t!"Junio", t!"Julio", t!"Augusto", t!"Septembre", t!"Octobre", t!"Novembre", t!"Decembre"]
    abbreviated := [t!"Jan.", t!"Feb.", t!"Mar.", t!"April", t!"Maio", t!"Junio", t!"Julio", t!"Aug.", t!"Sept.", t!"Oct.", t!"Nov.", t!"Dec."]
    short := [t!"Jan", t!"Feb", t!"Mar", t!"Apr", t!"Mai", t!"Jun", t!"Jul", t!"Aug", t!"Sep", t!"Oct", t!"Nov", t!"Dec"]
    days := [t!"dominica", t!"lunedi", t!"martedi", t!"mercuridi", t!"jovedi", t!"venerdi", t!"sabbato"]
    am := t!"am."
    pm := t!"pm."
    bigAm := t!"AM"
    bigPm := t!"PM"
    midnight := t!"medienocte"
    noon := t!"mediedie" }
  pluralForms := c!"nplurals=2; plural=(n != 1);"
  forms := [[true, true]]

/-- /repo/humanize/locale/id/locale.go:14-29; /repo/humanize/locale/id/django.po (Plural-Forms: line 27). -/
def loc_id : Shipped where
  dir := b!"id"
  lang := b!"id"
  format := some ⟨t!"j N Y", t!"G.i", t!"j N Y, G.i", t!"F Y", t!"j F", t!"d-m-Y", t!"d-m-Y G.i", 1⟩
  texts := {
    months := [t!"Januari", t!"Februari", t!"Maret", t!"April", t!"Mei", t!"Juni", t!"Juli", t!"Agustus", t!"September", t!"Oktober", t!"November", t!"Desember"]
    alternative := [t!"Januari", t!"Februari", t!"Maret", t!"April", t!"Mei", t!"Juni", t!"Juli", t!"Agustus", t!"September", t!"Oktober", t!"November", t!"Desember"]
    abbreviated := [t!"Jan.", t!"Feb.", t!"Maret", t!"April", t!"Mei", t!"Juni", t!"Juli", t!"Agu", t!"Sep.", t!"Okt.", t!"Nov.", t!"Des."]
    short := [t!"Jan", t!"Feb", t!"Mar", t!"Apr", t!"Mei", t!"Jun", t!"Jul", t!"Agu", t!"Sep", t!"Okt", t!"Nov", t!"Des"]
    days := [t!"Minggu", t!"Senin", t!"Selasa", t!"Rabu", t!"Kamis", t!"Jumat", t!"Sabtu"]
    am := t!"a.m"
    pm := t!"p.m"
    bigAm := t!"AM"
    bigPm := t!"PM"
    midnight := t!"tengah malam"
    noon := t!"siang" }
  pluralForms := c!"nplurals=1; plural=0;"
  forms := [[true, false]]

/-- /repo/humanize/locale/ig/locale.go:14-29; /repo/humanize/locale/ig/django.po (Plural-Forms: line 19). -/
def loc_ig : Shipped where
  dir := b!"ig"
  lang := b!"ig"
  format := some ⟨t!"j F Y", t!"P", t!"j F Y P", t!"F Y", t!"j F", t!"d.m.Y", t!"d.m.Y H:i", 1⟩
  texts := {
    months := [t!"Jenụwarị", t!"Febrụwarị", t!"Maachị", t!"Eprel", t!"Mee", t!"Juun", t!"Julaị", t!"Ọgọọst", t!"Septemba", t!"Ọktoba", t!"Novemba", t!"Disemba"]
    alternative := [t!"Jenụwarị", t!"Febrụwarị", t!"Maachị", t!"Eprel", t!"Mee", t!"Juun", t!"Julaị", t!"Ọgọọst", t!"Septemba", t!"Ọktoba", t!"Novemba", t!"Disemba"]
    abbreviated := [t!"Jenụwarị", t!"Feb.", t!"Maachị", t!"Eprel", t!"Mee", t!"Juun", t!"Julaị", t!"Ọgọ.", t!"Sep.", t!"Ọkt.", t!"Nov.", t!"Dis."]
    short := [t!"Jen", t!"Feb", t!"Maa", t!"Epr", t!"Mee", t!"Juu", t!"Jul", t!"Ọgọ", t!"Sep", t!"Ọkt", t!"Nov", t!"Dis"]
    days := [t!"Mbọsi Uka", t!"Mọnde", t!"Tiuzdee", t!"Wenezdee", t!"Tọọzdee", t!"Fraịdee", t!"Satọdee"]
    am := t!"a.m."
    pm := t!"p.m."
    bigAm := t!"AM"
    bigPm := t!"PM"
    midnight := t!"etiti Abalị"
    noon := t!"Ehihie" }
  pluralForms := c!"nplurals=1; plural=0;"
  forms := [[true, false]]

/-- /repo/humanize/locale/io/locale.go:14-19; /repo/humanize/locale/io/django.po (Plural-Forms: line 17). -/
def loc_io : Shipped where
  dir := b!"io"
  lang := b!"io"
  format := none
  texts := {
    months := [t!"Januaro", t!"Februaro", t!"Marto", t!"Aprilo", t!"Mayo", t!"Junio", t!"Julio", t!"Agosto", t!"Septembro", t!"Oktobro", t!"Novembro", t!"Decembro"]
    alternative := [t!"Januaro", t!"Februaro", t!"Marto", t!"Aprilo", t!"Mayo", t!"Junio", t!"Julio", t!"Agosto", t!"Septembro", t!"Oktobro", t!"Novembro", t!"Decembro"]
    abbreviated := [t!"Jan.", t!"Feb.", t!"Marto", t!"Aprilo", t!"Mayo", t!"Junio", t!"Julio", t!"Ago.", t!"Sept.", t!"Okt.", t!"Nov.", t!"Dec."]
    short := [t!"Jan", t!"Feb", t!"Mar", t!"Apr", t!"May", t!"Jun", t!"Jul", t!"Ago", t!"Sep", t!"Okt", t!"Nov", t!"Dec"]
    days := [t!"Sundio", t!"Lundio", t!"Mardio", t!"Merkurdio", t!"Jovdio", t!"Venerdio", t!"Saturdio"]
    am := t!"a.m."
    pm := t!"p.m."
    bigAm := t!"AM"
    bigPm := t!"PM"
    midnight := t!"noktomezo"
    noon := t!"dimezo" }
  pluralForms := c!"nplurals=2; plural=(n != 1);"
  forms := [[true, true]]

/-- /repo/humanize/locale/is/locale.go:14-26; /repo/humanize/locale/is/django.po (Plural-Forms: line 23). -/
def loc_is : Shipped where
  dir := b!"is"
  lang := b!"is"
  format := some ⟨t!"j. F Y", t!"H:i", [], t!"F Y", t!"j. F", t!"j.n.Y", [], 0⟩
  texts := {
    months := [t!"janúar", t!"febrúar", t!"mars", t!"apríl", t!"maí", t!"júní", t!"júlí", t!"ágúst", t!"september", t!"október", t!"nóvember", t!"desember"]
    alternative := [t!"janúar", t!"febrúar", t!"mars", t!"apríl", t!"maí", t!"júní", t!"júlí", t!"ágúst", t!"september", t!"október", t!"nóvember", t!"desember"]
    abbreviated := [t!"jan.", t!"feb.", t!"mars", t!"apríl", t!"maí", t!"júní", t!"júlí", t!"ág.", t!"sept.", t!"okt.", t!"nóv.", t!"des."]
    short := [t!"Jan", t!"Feb", t!"Mar", t!"Apr", t!"Maí", t!"Jún", t!"Júl", t!"Ágú", t!"Sep", t!"Okt", t!"Nóv", t!"Des"]
    days := [t!"sunnudagur", t!"mánudagur", t!"þriðjudagur", t!"miðvikudagur", t!"fimmtudagur", t!"föstudagur", t!"laugardagur"]
    am := t!"morgun"
    pm := t!"eftirmiðdegi"
    bigAm := t!"Morgun"
    bigPm := t!"Eftirmiðdegi"
    midnight := t!"miðnætti"
    noon := t!"hádegi" }
  pluralForms := c!"nplurals=2; plural=(n % 10 != 1 || n % 100 == 11);"
  forms := [[true, true]]

/-- /repo/humanize/locale/it/locale.go:14-29; /repo/humanize/locale/it/django.po (Plural-Forms: line 36). -/
def loc_it : Shipped where
  dir := b!"it"
  lang := b!"it"
  format := some ⟨t!"d F Y", t!"H:i", t!"l d F Y H:i", t!"F Y", t!"j F", t!"d/m/Y", t!"d/m/Y H:i", 1⟩
  texts := {
    months := [t!"Gennaio", t!"Febbraio", t!"Marzo", t!"Aprile", t!"Maggio", t!"Giugno", t!"Luglio", t!"Agosto", t!"Settembre", t!"Ottobre", t!"Novembre", t!"Dicembre"]
    alternative := [t!"Gennaio", t!"Febbraio", t!"Marzo", t!"Aprile", t!"Maggio", t!"Giugno", t!"Luglio", t!"Agosto", t!"Settembre", t!"Ottobre", t!"Novembre", t!"Dicembre"]
    abbreviated := [t!"Gen.", t!"Feb.", t!"Marzo", t!"Aprile", t!"Maggio", t!"Giugno", t!"Luglio", t!"Ago.", t!"Set.", t!"Ott.", t!"Nov.", t!"Dic."]
    short := [t!"Gen", t!"Feb", t!"Mar", t!"Apr", t!"Mag", t!"Giu", t!"Lug", t!"Ago", t!"Set", t!"Ott", t!"Nov", t!"Dic"]
    days := [t!"Domenica", t!"Lunedì", t!"Martedì", t!"Mercoledì", t!"Giovedì", t!"Venerdì", t!"Sabato"]
    am := t!"a.m."
    pm := t!"p.m."
    bigAm := t!"AM"
    bigPm := t!"PM"
    midnight := t!"mezzanotte"
    noon := t!"mezzogiorno" }
  pluralForms := c!"nplurals=2; plural=(n != 1);"
  forms := [[true, true, true]]

/-- /repo/humanize/locale/ja/locale.go:14-28; /repo/humanize/locale/ja/django.po (Plural-Forms: line 32). -/
def loc_ja : Shipped where
  dir := b!"ja"
  lang := b!"ja"
  format := some ⟨t!"Y年n月j日", t!"G:i", t!"Y年n月j日G:i", t!"Y年n月", t!"n月j日", t!"Y/m/d", t!"Y/m/d G:i", 0⟩
  texts := {
    months := [t!"1月", t!"2月", t!"3月", t!"4月", t!"5月", t!"6月", t!"7月", t!"8月", t!"9月", t!"10月", t!"11月", t!"12月"]
    alternative := [t!"1月", t!"2月", t!"3月", t!"4月", t!"5月", t!"6月", t!"7月", t!"8月", t!"9月", t!"10月", t!"11月", t!"12月"]
    abbreviated := [t!"1月", t!"2月", t!"3月", t!"4月", t!"5月", t!"6月", t!"7月", t!"8月", t!"9月", t!"10月", t!"11月", t!"12月"]
    short := [t!"1月", t!"2月", t!"3月", t!"4月", t!"5月", t!"6月", t!"7月", t!"8月", t!"9月", t!"10月", t!"11月", t!"12月"]
    days := [t!"日曜日", t!"月曜日", t!"火曜日", t!"水曜日", t!"木曜日", t!"金曜日", t!"土曜日"]
    am := t!"a.m."
    pm := t!"p.m."
    bigAm := t!"AM"
    bigPm := t!"PM"
    midnight := t!"0時"
    noon := t!"12時" }
  pluralForms := c!"nplurals=1; plural=0;"
  forms := [[true, false]]

/-- /repo/humanize/locale/ka/locale.go:14-29; /repo/humanize/locale/ka/django.po (Plural-Forms: line 21). -/
def loc_ka : Shipped where
  dir := b!"ka"
  lang := b!"ka"
  format := some ⟨t!"l, j F, Y", t!"h:i a", t!"j F, Y h:i a", t!"F, Y", t!"j F", t!"j.M.Y", t!"j.M.Y H:i", 1⟩
  texts := {
    months := [t!"იანვარი", t!"თებერვალი", t!"მარტი", t!"აპრილი", t!"მაისი", t!"ივნისი", t!"ივლისი", t!"აგვისტო", t!"სექტემბერი", t!"ოქტომბერი", t!"ნოემბერი", t!"დეკემბერი"]
    alternative := [t!"იანვარი", t!"თებერვალი", t!"მარტი", t!"აპრილი", t!"მაისი", t!"ივნისი", t!"ივლისი", t!"აგვისტო", t!"სექტემბერი", t!"ოქტომბერი", t!"ნოემბერი", t!"დეკემბერი"]
    abbreviated := [t!"იან.", t!"თებ.", t!"მარ.", t!"აპრ.", t!"მაი", t!"ივნ.", t!"ივლ.", t!"აგვ.", t!"სექტ.", t!"ოქტ.", t!"ნოემ.", t!"დეკ."]
    short := [t!"Იან", t!"Თებ", t!"Მარ", t!"Აპრ", t!"Მაი", t!"Ივნ", t!"Ივლ", t!"Აგვ", t!"Სექ", t!"Ოქტ", t!"Ნოე", t!"Დეკ"]
    days := [t!"კვირა", t!"ორშაბათი", t!"სამშაბათი", t!"ოთხშაბათი", t!"ხუთშაბათი", t!"პარასკევი", t!"შაბათი"]
    am := t!"a.m."
    pm := t!"p.m."
    bigAm := t!"AM"
    bigPm := t!"PM"
    midnight := t!"შუაღამე"
    noon := t!"შუადღე" }
  pluralForms := c!"nplurals=2; plural=(n!=1);"
  forms := [[true, true]]

/-- /repo/humanize/locale/kab/locale.go:14-19; /repo/humanize/locale/kab/django.po (Plural-Forms: line 16). -/
def loc_kab : Shipped where
  dir := b!"kab"
  lang := b!"kab"
  format := none
  texts := {
    months := [t!"Yennayer", t!"Fuṛaṛ", t!"Meɣres", t!"Yebrir", t!"Mayyu", t!"Yunyu", t!"Yulyu", t!"Ɣuct", t!"Ctamber", t!"Tuber", t!"Wamber", t!"Dujamber"]
    alternative := [t!"Yennayer", t!"Fuṛaṛ", t!"Meɣres", t!"Yebrir", t!"Mayyu", t!"Yunyu", t!"Yulyu", t!"Ɣuct", t!"Ctamber", t!"Tuber", t!"Wamber", t!"Dujamber"]
    abbreviated := [t!"Yen.", t!"Fuṛ.", t!"Meɣres", t!"Yebrir", t!"Mayyu", t!"Yunyu", t!"Yulyu", t!"Ɣuc.", t!"Sept.", t!"Tub.", t!"Wam.", t!"Duj."]
    short := [t!"Yen", t!"Fuṛ", t!"Meɣ", t!"Yeb", t!"May", t!"Yun", t!"Yul", t!"Ɣuc", t!"Cte", t!"Tub", t!"Wam", t!"Duj"]
    days := [t!"Acer", t!"Arim", t!"Aram", t!"Ahad", t!"Amhad", t!"Sem", t!"Sed"]
    am := t!"f.t."
    pm := t!"m.d."
    bigAm := t!"FT"
    bigPm := t!"MD"
    midnight := t!"ttnaṣfa n yiḍ"
    noon := t!"ttnaṣfa n uzal" }
  pluralForms := c!"nplurals=2; plural=(n != 1);"
  forms := []

/-- /repo/humanize/locale/kk/locale.go:14-19; /repo/humanize/locale/kk/django.po (Plural-Forms: line 21). -/
def loc_kk : Shipped where
  dir := b!"kk"
  lang := b!"kk"
  format := none
  texts := {
    months := [t!"Қаңтар", t!"Ақпан", t!"Наурыз", t!"Сәуір", t!"Мамыр", t!"Маусым", t!"Шілде", t!"Тамыз", t!"Қыркүйек", t!"Қазан", t!"Қараша", t!"Желтоқсан"]
    alternative := [t!"Қаңтар", t!"Ақпан", t!"Наурыз", t!"Сәуір", t!"Мамыр", t!"Маусым", t!"Шілде", t!"Тамыз", t!"Қыркүйек", t!"Қазан", t!"Қараша", t!"Желтоқсан"]
    abbreviated := [t!"Қаң.", t!"Ақп.", t!"Наурыз", t!"Сәуір", t!"Мамыр", t!"Маусым", t!"Шілде", t!"Там.", t!"Қыр.", t!"Қаз.", t!"Қар.", t!"Жел."]
    short := [t!"Қан", t!"Ақп", t!"Нау", t!"Сәу", t!"Мам", t!"Мау", t!"Шіл", t!"Там", t!"Қыр", t!"Қаз", t!"Қар", t!"Жел"]
    days := [t!"Жексенбі", t!"Дүйсенбі", t!"Сейсенбі", t!"Сәрсенбі", t!"Бейсенбі", t!"Жума", t!"Сенбі"]
    am := t!"Т.Ж."
    pm := t!"Т.Қ."
    bigAm := t!"ТЖ"
    bigPm := t!"ТҚ"
    midnight := t!"түнжарым"
    noon := t!"түсқайта" }
  pluralForms := c!"nplurals=2; plural=(n!=1);"
  forms := [[true, true]]

/-- /repo/humanize/locale/km/locale.go:14-27; /repo/humanize/locale/km/django.po (Plural-Forms: line 18). -/
def loc_km : Shipped where
  dir := b!"km"
  lang := b!"km"
  format := some ⟨t!"j ខែ F ឆ្នាំ Y", t!"G:i", t!"j ខែ F ឆ្នាំ Y, G:i", [], t!"j F", t!"j M Y", t!"j M Y, G:i", 0⟩
  texts := {
    months := [t!"មករា", t!"កុម្ភៈ", t!"មិនា", t!"មេសា", t!"ឧសភា", t!"មិថុនា", t!"កក្កដា", t!"សីហា", t!"កញ្ញា", t!"តុលា", t!"វិច្ឆិកា", t!"ធ្នូ"]
    alternative := [t!"មករា", t!"កុម្ភៈ", t!"មិនា", t!"មេសា", t!"ឧសភា", t!"មិថុនា", t!"កក្កដា", t!"សីហា", t!"កញ្ញា", t!"តុលា", t!"វិច្ឆិកា", t!"ធ្នូ"]
    abbreviated := [t!"Jan.", t!"Feb.", t!"មិនា", t!"មេសា", t!"ឧសភា", t!"មិថុនា", t!"កក្កដា", t!"Aug.", t!"Sept.", t!"Oct.", t!"Nov.", t!"Dec."]
    short := [t!"មករា", t!"កុម្ភះ", t!"មិនា", t!"មេសា", t!"ឧសភា", t!"មិថុនា", t!"កក្កដា", t!"សីហា", t!"កញ្ញា", t!"តុលា", t!"វិច្ឆិកា", t!"ធ្នូ"]
    days := [t!"អាទិត្យ", t!"ច័ន្ទ", t!"អង្គារ", t!"ពុធ", t!"ព្រហស្បតិ៍", t!"សុក្រ", t!"សៅរ៍"]
    am := t!"a.m."
    pm := t!"p.m."
    bigAm := t!"AM"
    bigPm := t!"PM"
    midnight := t!"midnight"
    noon := t!"noon" }
  pluralForms := c!"nplurals=1; plural=0;"
  forms := []

/-- /repo/humanize/locale/kn/locale.go:14-25; /repo/humanize/locale/kn/django.po (Plural-Forms: line 19). -/
def loc_kn : Shipped where
  dir := b!"kn"
  lang := b!"kn"
  format := some ⟨t!"j F Y", t!"h:i A", [], [], t!"j F", t!"j M Y", [], 0⟩
  texts := {
    months := [t!"ಜನವರಿ", t!"ಫೆಬ್ರುವರಿ", t!"ಮಾರ್ಚ್", t!"ಎಪ್ರಿಲ್", t!"ಮೇ", t!"ಜೂನ್", t!"ಜುಲೈ", t!"ಆಗಸ್ಟ್", t!"ಸೆಪ್ಟೆಂಬರ್", t!"ಅಕ್ಟೋಬರ್", t!"ನವೆಂಬರ್", t!"ಡಿಸೆಂಬರ್"]
    alternative := [t!"ಜನವರಿ", t!"ಫೆಬ್ರವರಿ", t!"ಮಾರ್ಚ್", t!"ಏಪ್ರಿಲ್", t!"ಮೇ", t!"ಜೂನ್", t!"ಜುಲೈ", t!"ಆಗಸ್ಟ್‍", t!"ಸಪ್ಟೆಂಬರ್", t!"ಅಕ್ಟೋಬರ್", t!"ನವೆಂಬರ್", t!"ಡಿಸೆಂಬರ್"]
    abbreviated := [t!"ಜನ.", t!"ಫೆಬ್ರ.", t!"ಮಾರ್ಚ್", t!"ಏಪ್ರಿಲ್", t!"ಮೇ", t!"ಜೂನ್", t!"ಜುಲೈ", t!"ಆಗ.", t!"ಸೆಪ್ಟೆ.", t!"ಅಕ್ಟೋ.", t!"ನವೆಂ.", t!"ಡಿಸೆಂ."]
    short := [t!"ಜನವರಿ", t!"ಫೆಬ್ರವರಿ", t!"ಮಾರ್ಚ್", t!"ಏಪ್ರಿಲ್", t!"ಮೇ", t!"ಜೂನ್", t!"ಜುಲೈ", t!"ಆಗಸ್ಟ್‍", t!"ಸೆಪ್ಟೆಂಬರ್", t!"ಅಕ್ಟೋಬರ್", t!"ನವೆಂಬರ್", t!"ಡಿಸೆಂಬರ್"]
    days := [t!"ರವಿವಾರ", t!"ಸೋಮವಾರ", t!"ಮಂಗಳವಾರ", t!"ಬುಧವಾರ", t!"ಗುರುವಾರ", t!"ಶುಕ್ರವಾರ", t!"ಶನಿವಾರ"]
    am := t!"ಪೂರ್ವಾಹ್ನ"
    pm := t!"ಅಪರಾಹ್ನ"
    bigAm := t!"ಪೂರ್ವಾಹ್ನ"
    bigPm := t!"ಅಪರಾಹ್ನ"
    midnight := t!"ಮಧ್ಯರಾತ್ರಿ"
    noon := t!"ಮಧ್ಯಾಹ್ನ" }
  pluralForms := c!"nplurals=2; plural=(n > 1);"
  forms := [[true, true]]

/-- /repo/humanize/locale/ko/locale.go:14-28; /repo/humanize/locale/ko/django.po (Plural-Forms: line 44). -/
def loc_ko : Shipped where
  dir := b!"ko"
  lang := b!"ko"
  format := some ⟨t!"Y년 n월 j일", t!"A g:i", t!"Y년 n월 j일 g:i A", t!"Y년 n월", t!"n월 j일", t!"Y-n-j.", t!"Y-n-j H:i", 0⟩
  texts := {
    months := [t!"1월", t!"2월", t!"3월", t!"4월", t!"5월", t!"6월", t!"7월", t!"8월", t!"9월", t!"10월", t!"11월", t!"12월"]
    alternative := [t!"1월", t!"2월", t!"3월", t!"4월", t!"5월", t!"6월", t!"7월", t!"8월", t!"9월", t!"10월", t!"11월", t!"12월"]
    abbreviated := [t!"1월", t!"2월", t!"3월", t!"4월", t!"5월", t!"6월", t!"7월", t!"8월", t!"9월", t!"10월", t!"11월", t!"12월"]
    short := [t!"1월", t!"2월", t!"3월", t!"4월", t!"5월", t!"6월", t!"7월", t!"8월", t!"9월", t!"10월", t!"11월", t!"12월"]
    days := [t!"일요일", t!"월요일", t!"화요일", t!"수요일", t!"목요일", t!"금요일", t!"토요일"]
    am := t!"오전"
    pm := t!"오후"
    bigAm := t!"오전"
    bigPm := t!"오후"
    midnight := t!"자정"
    noon := t!"정오" }
  pluralForms := c!"nplurals=1; plural=0;"
  forms := [[true, false]]

/-- /repo/humanize/locale/ky/locale.go:14-29; /repo/humanize/locale/ky/django.po (Plural-Forms: line 19). -/
def loc_ky : Shipped where
  dir := b!"ky"
  lang := b!"ky"
  format := some ⟨t!"j E Y ж.", t!"G:i", t!"j E Y ж. G:i", t!"F Y ж.", t!"j F", t!"d.m.Y", t!"d.m.Y H:i", 1⟩
  texts := {
    months := [t!"Январь", t!"Февраль", t!"Март", t!"Апрель", t!"Май", t!"Июнь", t!"Июль", t!"Август", t!"Сентябрь", t!"Октябрь", t!"Ноябрь", t!"Декабрь"]
    alternative := [t!"Январь", t!"Февраль", t!"Март", t!"Апрель", t!"Май", t!"Июнь", t!"Июль", t!"Август", t!"Сентябрь", t!"Октябрь", t!"Ноябрь", t!"Декабрь"]
    abbreviated := [t!"Янв.", t!"Фев.", t!"Март", t!"Апрель", t!"Май", t!"Июнь", t!"Июль", t!"Авг.", t!"Сен.", t!"Окт.", t!"Ноя.", t!"Дек."]
    short := [t!"Янв", t!"Фев", t!"Мар", t!"Апр", t!"Май", t!"Июн", t!"Июл", t!"Авг", t!"Сен", t!"Окт", t!"Ноя", t!"Дек"]
    days := [t!"Жекшемби", t!"Дүйшөмбү", t!"Шейшемби", t!"Шаршемби", t!"Бейшемби", t!"Жума", t!"Ишемби"]
    am := t!"түшкө чейин"
    pm := t!"түштөн кийин"
    bigAm := t!"Түшкө чейин"
    bigPm := t!"Түштөн кийин"
    midnight := t!"Түнүчү"
    noon := t!"ай" }
  pluralForms := c!"nplurals=1; plural=0;"
  forms := [[true, false]]

/-- /repo/humanize/locale/lb/locale.go:14-19; /repo/humanize/locale/lb/django.po (Plural-Forms: line 18). -/
def loc_lb : Shipped where
  dir := b!"lb"
  lang := b!"lb"
  format := none
  texts := {
    months := [t!"Januar", t!"Februar", t!"März", t!"Abrell", t!"May", t!"Juni", t!"Juli", t!"August", t!"September", t!"Oktober", t!"November", t!"Dezember"]
    alternative := [t!"Januar", t!"Februar", t!"März", t!"Abrell", t!"May", t!"Juni", t!"Juli", t!"August", t!"September", t!"Oktober", t!"November", t!"December"]
    abbreviated := [t!"Jan.", t!"Feb.", t!"März", t!"Abrell", t!"May", t!"Juni", t!"Juli", t!"Aug.", t!"Sept.", t!"Okt.", t!"Nov.", t!"Dec."]
    short := [t!"Jan", t!"Feb", t!"Mär", t!"Abr", t!"May", t!"Jun", t!"Jul", t!"Aug", t!"Sep", t!"Okt", t!"Nov", t!"Dec"]
    days := [t!"Sonndes", t!"Méindeg", t!"Dënschdeg", t!"Mëttwoch", t!"Donneschdes", t!"Freides", t!"Samschdes"]
    am := t!"a.m."
    pm := t!"p.m."
    bigAm := t!"AM"
    bigPm := t!"PM"
    midnight := t!"midnight"
    noon := t!"noon" }
  pluralForms := c!"nplurals=2; plural=(n != 1);"
  forms := []

/-- /repo/humanize/locale/lt/locale.go:14-29; /repo/humanize/locale/lt/django.po (Plural-Forms: line 26). -/
def loc_lt : Shipped where
  dir := b!"lt"
  lang := b!"lv"
  format := some ⟨t!"Y. \\g\\a\\d\\a j. F", t!"H:i", t!"Y. \\g\\a\\d\\a j. F, H:i", t!"Y. \\g. F", t!"j. F", t!"j.m.Y", t!"j.m.Y H:i", 1⟩
  texts := {
    months := [t!"sausis", t!"vasaris", t!"kovas", t!"balandis", t!"gegužė", t!"birželis", t!"liepa", t!"rugpjūtis", t!"rugsėjis", t!"spalis", t!"lapkritis", t!"gruodis"]
    alternative := [t!"sausio", t!"vasario", t!"kovo", t!"balandžio", t!"gegužės", t!"birželio", t!"liepos", t!"rugpjūčio", t!"rugsėjo", t!"spalio", t!"lapkričio", t!"gruodžio"]
    abbreviated := [t!"saus.", t!"vas.", t!"kov.", t!"bal.", t!"geg.", t!"birž.", t!"liep.", t!"rugpj.", t!"rugs.", t!"spal.", t!"lapkr.", t!"gruod."]
    short := [t!"Sau", t!"Vas", t!"Kov", t!"Bal", t!"Geg", t!"Bir", t!"Lie", t!"Rugp", t!"Rugs", t!"Spa", t!"Lap", t!"Grd"]
    days := [t!"Sekmadienis", t!"Pirmadienis", t!"Antradienis", t!"Trečiadienis", t!"Ketvirtadienis", t!"Penktadienis", t!"Šeštadienis"]
    am := t!"a.m."
    pm := t!"p.m."
    bigAm := t!"AM"
    bigPm := t!"PM"
    midnight := t!"vidurnaktis"
    noon := t!"vidurdienis" }
  pluralForms := c!"nplurals=4; plural=(n % 10 == 1 && (n % 100 > 19 || n % 100 < 11) ? 0 : (n % 10 >= 2 && n % 10 <=9) && (n % 100 > 19 || n % 100 < 11) ? 1 : n % 1 != 0 ? 2: 3);"
  forms := [[true, true, true, true]]

/-- /repo/humanize/locale/lv/locale.go:14-29; /repo/humanize/locale/lv/django.po (Plural-Forms: line 29). -/
def loc_lv : Shipped where
  dir := b!"lv"
  lang := b!"lv"
  format := some ⟨t!"j. F Y", t!"H:i", t!"j. F Y H:i", t!"F Y", t!"j. F", t!"d.m.Y", t!"d.m.Y H:i", 1⟩
  texts := {
    months := [t!"janvāris", t!"februāris", t!"marts", t!"aprīlis", t!"maijs", t!"jūnijs", t!"jūlijs", t!"augusts", t!"septembris", t!"oktobris", t!"novembris", t!"decembris"]
    alternative := [t!"janvāris", t!"februāris", t!"marts", t!"aprīlis", t!"maijs", t!"jūnijs", t!"jūlijs", t!"augusts", t!"septembris", t!"oktobris", t!"novembris", t!"decembris"]
    abbreviated := [t!"jan.", t!"feb.", t!"marts", t!"aprīlis", t!"maijs", t!"jūnijs", t!"jūlijs", t!"aug.", t!"sept.", t!"okt.", t!"nov.", t!"dec."]
    short := [t!"Jan", t!"Feb", t!"Mar", t!"Apr", t!"Mai", t!"Jūn", t!"Jūl", t!"Aug", t!"Sep", t!"Okt", t!"Nov", t!"Dec"]
    days := [t!"svētdiena", t!"pirmdiena", t!"otrdiena", t!"trešdiena", t!"ceturtdiena", t!"piektdiena", t!"sestdiena"]
    am := t!"priekšpusdienā"
    pm := t!"pēcpusdienā"
    bigAm := t!"priekšpusdienā"
    bigPm := t!"pēcpusdienā"
    midnight := t!"pusnakts"
    noon := t!"dienasvidus" }
  pluralForms := c!"nplurals=3; plural=(n%10==1 && n%100!=11 ? 0 : n != 0 ? 1 : 2);"
  forms := [[true, true, true]]

/-- /repo/humanize/locale/mk/locale.go:14-29; /repo/humanize/locale/mk/django.po (Plural-Forms: line 23). -/
def loc_mk : Shipped where
  dir := b!"mk"
  lang := b!"mk"
  format := some ⟨t!"d F Y", t!"H:i", t!"j. F Y H:i", t!"F Y", t!"j. F", t!"j.m.Y", t!"j.m.Y H:i", 1⟩
  texts := {
    months := [t!"Јануари", t!"Февруари", t!"Март", t!"Април", t!"Мај", t!"Јуни", t!"Јули", t!"август", t!"Септември", t!"Октомври", t!"Ноември", t!"Декември"]
    alternative := [t!"Јануари", t!"Февруари", t!"Март", t!"Април", t!"Мај", t!"Јуни", t!"Јули", t!"Август", t!"Септември", t!"Октомври", t!"Ноември", t!"Декември"]
    abbreviated := [t!"Јан.", t!"Фев.", t!"Март", t!"Април", t!"Мај", t!"Јуни", t!"Јули", t!"Авг.", t!"Септ.", t!"Окт.", t!"Ное.", t!"Дек."]
    short := [t!"Јан", t!"Фев", t!"Мар", t!"Апр", t!"Мај", t!"Јун", t!"Јул", t!"Авг", t!"Сеп", t!"Окт", t!"Ное", t!"Дек"]
    days := [t!"Недела", t!"Понеделник", t!"Вторник", t!"Среда", t!"Четврток", t!"Петок", t!"Сабота"]
    am := t!"наутро"
    pm := t!"попладне"
    bigAm := t!"наутро"
    bigPm := t!"попладне"
    midnight := t!"полноќ"
    noon := t!"пладне" }
  pluralForms := c!"nplurals=2; plural=(n % 10 == 1 && n % 100 != 11) ? 0 : 1;"
  forms := [[true, true]]

/-- /repo/humanize/locale/ml/locale.go:14-29; /repo/humanize/locale/ml/django.po (Plural-Forms: line 26). -/
def loc_ml : Shipped where
  dir := b!"ml"
  lang := b!"ml"
  format := some ⟨t!"N j, Y", t!"P", t!"N j, Y, P", t!"F Y", t!"F j", t!"m/d/Y", t!"m/d/Y P", 0⟩
  texts := {
    months := [t!"ജനുവരി", t!"ഫെബ്രുവരി", t!"മാര്‍ച്ച്", t!"ഏപ്രില്‍", t!"മേയ്", t!"ജൂണ്‍", t!"ജൂലൈ", t!"ആഗസ്ത്", t!"സെപ്തംബര്‍", t!"ഒക്ടോബര്‍", t!"നവംബര്‍", t!"ഡിസംബര്‍"]
    alternative := [t!"ജനുവരി", t!"ഫെബ്രുവരി", t!"മാര്‍ച്ച്", t!"ഏപ്രില്‍", t!"മേയ്", t!"ജൂണ്‍", t!"ജൂലൈ", t!"ആഗസ്ത്", t!"സെപ്തംബര്‍", t!"ഒക്ടോബര്‍", t!"നവംബര്‍", t!"ഡിസംബര്‍"]
    abbreviated := [t!"ജനു.", t!"ഫെബ്രു.", t!"മാര്‍ച്ച്", t!"ഏപ്രില്‍", t!"മേയ്", t!"ജൂണ്‍", t!"ജൂലൈ", t!"ആഗ.", t!"സെപ്തം.", t!"ഒക്ടോ.", t!"നവം.", t!"ഡിസം."]
    short := [t!"ജനു.", t!"ഫെബ്രു.", t!"മാര്‍ച്ച്", t!"ഏപ്രില്‍", t!"മേയ്", t!"ജൂണ്‍", t!"ജൂലൈ", t!"ആഗസ്ത്", t!"സെപ്ടം.", t!"ഒക്ടോ.", t!"നവം.", t!"ഡിസം."]
    days := [t!"ഞായറാഴ്ച", t!"തിങ്കളാഴ്ച", t!"ചൊവ്വാഴ്ച", t!"ബുധനാഴ്ച", t!"വ്യാഴാഴ്ച", t!"വെള്ളിയാഴ്ച", t!"ശനിയാഴ്ച"]
    am := t!"എ. എം (ഉച്ചയ്ക്കു മുമ്പ്)"
    pm := t!"പി. എം (ഉച്ചയ്ക്കു ശേഷം) "
    bigAm := t!"എ. എം (ഉച്ചയ്ക്കു മുമ്പ്)"
    bigPm := t!"പി. എം (ഉച്ചയ്ക്കു ശേഷം) "
    midnight := t!"അര്‍ധരാത്രി"
    noon := t!"ഉച്ച" }
  pluralForms := c!"nplurals=2; plural=(n != 1);"
  forms := [[true, true]]

/-- /repo/humanize/locale/mn/locale.go:14-24; /repo/humanize/locale/mn/django.po (Plural-Forms: line 28). -/
def loc_mn : Shipped where
  dir := b!"mn"
  lang := b!"mn"
  format := some ⟨t!"d F Y", t!"g:i A", [], [], [], t!"j M Y", [], 0⟩
  texts := {
    months := [t!"1-р сар", t!"2-р сар", t!"3-р сар", t!"4-р сар", t!"5-р сар", t!"6-р сар", t!"7-р сар", t!"8-р сар", t!"9-р сар", t!"10-р сар", t!"11-р сар", t!"12-р сар"]
    alternative := [t!"Хулгана", t!"Үхэр", t!"Бар", t!"Туулай", t!"Луу", t!"Могой", t!"Морь", t!"Хонь", t!"Бич", t!"Тахиа", t!"Нохой", t!"Гахай"]
    abbreviated := [t!"1-р сар.", t!"2-р сар.", t!"3-р сар.", t!"4-р сар.", t!"5-р сар.", t!"6-р сар.", t!"7-р сар.", t!"8-р сар.", t!"9-р сар.", t!"10-р сар.", t!"11-р сар.", t!"12-р сар."]
    short := [t!"1-р сар", t!"2-р сар", t!"3-р сар", t!"4-р сар", t!"5-р сар", t!"6-р сар", t!"7-р сар", t!"8-р сар ", t!"9-р сар", t!"10-р сар", t!"11-р сар", t!"12-р сар"]
    days := [t!"Ням гариг", t!"Даваа гариг", t!"Мягмар гариг", t!"Лхагва гариг", t!"Пүрэв гариг", t!"Баасан гариг", t!"Бямба гариг"]
    am := t!"a.m."
    pm := t!"p.m."
    bigAm := t!"AM"
    bigPm := t!"PM"
    midnight := t!"шөнө дунд"
    noon := t!"үд дунд" }
  pluralForms := c!"nplurals=2; plural=(n != 1);"
  forms := [[true, true]]

/-- /repo/humanize/locale/mr/locale.go:14-19; /repo/humanize/locale/mr/django.po (Plural-Forms: line 18). -/
def loc_mr : Shipped where
  dir := b!"mr"
  lang := b!"mr"
  format := none
  texts := {
    months := [t!"जानेवारी", t!"फेब्रुवारी", t!"मार्च", t!"एप्रिल", t!"मे", t!"जून", t!"जुलै", t!"ऑगस्ट", t!"सप्टेंबर", t!"ऑक्टोबर", t!"नोव्हेंबर", t!"डिसेंबर"]
    alternative := [t!"जानेवारी", t!"फेब्रुवारी", t!"मार्च", t!"एप्रिल", t!"मे", t!"जून", t!"जुलै", t!"ऑगस्ट", t!"सप्टेंबर", t!"ऑक्टोबर", t!"नोव्हेंबर", t!"डिसेंबर"]
    abbreviated := [t!"जान.", t!"फेब.", t!"मार्च", t!"एप्रिल", t!"मे", t!"जून", t!"जुलै", t!"ऑग.", t!"सप्ट.", t!"ऑक्ट.", t!"नोव्ह.", t!"डिस."]
    short := [t!"जान", t!"फेब", t!"मार", t!"एप्रि", t!"मे", t!"जून", t!"जुल", t!"ऑग", t!"सप", t!"ऑक्ट", t!"नोव्ह", t!"डिस"]
    days := [t!"रविवार", t!"सोमवार", t!"मंगळवार", t!"बुधवार", t!"गुरुवार", t!"शुक्रवार", t!"शनिवार"]
    am := t!"म.पू."
    pm := t!"म.उ."
    bigAm := t!"मपू"
    bigPm := t!"मउ"
    midnight := t!"मध्यरात्री"
    noon := t!"दुपारी" }
  pluralForms := c!"nplurals=2; plural=(n != 1);"
  forms := []

/-- /repo/humanize/locale/ms/locale.go:14-29; /repo/humanize/locale/ms/django.po (Plural-Forms: line 18). -/
def loc_ms : Shipped where
  dir := b!"ms"
  lang := b!"ms"
  format := some ⟨t!"j M Y", t!"P", t!"j M Y, P", t!"F Y", t!"j F", t!"d/m/Y", t!"d/m/Y P", 0⟩
  texts := {
    months := [t!"Januari", t!"Februari", t!"Mac", t!"April", t!"Mei", t!"Jun", t!"Julai", t!"Ogos", t!"September", t!"Oktober", t!"November", t!"Disember"]
    alternative := [t!"Januari", t!"Februari", t!"Mac", t!"April", t!"Mei", t!"Jun", t!"Julai", t!"Ogos", t!"September", t!"Oktober", t!"November", t!"Disember"]
    abbreviated := [t!"Jan.", t!"Feb", t!"Mac", t!"April", t!"Mei", t!"Jun", t!"Julai", t!"Ogo.", t!"Sept.", t!"Okt.", t!"Nov.", t!"Dis."]
    short := [t!"Jan", t!"Feb", t!"Mar", t!"Apr", t!"Mei", t!"Jun", t!"Jul", t!"Ogo", t!"Sep", t!"Okt", t!"Nov", t!"Dis"]
    days := [t!"Ahad", t!"Isnin", t!"Selasa", t!"Rabu", t!"Khamis", t!"Jumaat", t!"Sabtu"]
    am := t!"pagi"
    pm := t!"malam"
    bigAm := t!"PAGI"
    bigPm := t!"MALAM"
    midnight := t!"tengah malam"
    noon := t!"tengahari" }
  pluralForms := c!"nplurals=1; plural=0;"
  forms := [[true, false]]

/-- /repo/humanize/locale/my/locale.go:14-19; /repo/humanize/locale/my/django.po (Plural-Forms: line 17). -/
def loc_my : Shipped where
  dir := b!"my"
  lang := b!"my"
  format := none
  texts := {
    months := [t!"January", t!"February", t!"March", t!"April", t!"May", t!"June", t!"July", t!"August", t!"September", t!"October", t!"November", t!"December"]
    alternative := [t!"January", t!"February", t!"March", t!"April", t!"May", t!"June", t!"July", t!"August", t!"September", t!"October", t!"November", t!"December"]
    abbreviated := [t!"Jan.", t!"Feb.", t!"March", t!"April", t!"May", t!"June", t!"July", t!"Aug.", t!"Sept.", t!"Oct.", t!"Nov.", t!"Dec."]
    short := [t!"Jan", t!"Feb", t!"Mar", t!"Apr", t!"May", t!"Jun", t!"Jul", t!"Aug", t!"Sep", t!"Oct", t!"Nov", t!"Dec"]
    days := [t!"Sunday", t!"တနင်္လာနေ့", t!"Tuesday", t!"Wednesday", t!"Thursday", t!"Friday", t!"Saturday"]
    am := t!"မနက်"
    pm := t!"ညနေ"
    bigAm := t!"မနက်"
    bigPm := t!"ညနေ"
    midnight := t!"သန်းခေါင်"
    noon := t!"မွန်းတည့်" }
  pluralForms := c!"nplurals=1; plural=0;"
  forms := [[true, false]]

/-- /repo/humanize/locale/nb/locale.go:14-29; /repo/humanize/locale/nb/django.po (Plural-Forms: line 27). -/
def loc_nb : Shipped where
  dir := b!"nb"
  lang := b!"nb"
  format := some ⟨t!"j. F Y", t!"H:i", t!"j. F Y H:i", t!"F Y", t!"j. F", t!"d.m.Y", t!"d.m.Y H:i", 1⟩
  texts := {
    months := [t!"januar", t!"februar", t!"mars", t!"april", t!"mai", t!"juni", t!"juli", t!"august", t!"september", t!"oktober", t!"november", t!"desember"]
    alternative := [t!"Januar", t!"Februar", t!"Mars", t!"April", t!"Mai", t!"Juni", t!"Juli", t!"August", t!"September", t!"Oktober", t!"November", t!"Desember"]
    abbreviated := [t!"jan.", t!"feb.", t!"mar.", t!"apr.", t!"mai", t!"jun.", t!"jul.", t!"aug.", t!"sept.", t!"okt.", t!"nov.", t!"des."]
    short := [t!"Jan", t!"Feb", t!"Mar", t!"Apr", t!"Mai", t!"Jun", t!"Jul", t!"Aug", t!"Sep", t!"Okt", t!"Nov", t!"Des"]
    days := [t!"søndag", t!"mandag", t!"tirsdag", t!"onsdag", t!"torsdag", t!"fredag", t!"lørdag"]
    am := t!"a.m."
    pm := t!"p.m."
    bigAm := t!"AM"
    bigPm := t!"PM"
    midnight := t!"midnatt"
    noon := t!"12:00" }
  pluralForms := c!"nplurals=2; plural=(n != 1);"
  forms := [[true, true]]

/-- /repo/humanize/locale/ne/locale.go:14-29; /repo/humanize/locale/ne/django.po (Plural-Forms: line 21). -/
def loc_ne : Shipped where
  dir := b!"ne"
  lang := b!"ne"
  format := some ⟨t!"j. F Y", t!"H:i", t!"j. F Y H:i", t!"F Y", t!"j. F", t!"d.m.Y", t!"d.m.Y H:i", 1⟩
  texts := {
    months := [t!"जनवरी", t!"फेब्रुअरी", t!"मार्च", t!"अप्रिल", t!"मई", t!"जुन", t!"जुलै", t!"अगस्त", t!"सेप्टेम्बर", t!"अक्टुवर", t!"नभम्वर", t!"डिसम्वर"]
    alternative := [t!"जनवरी", t!"फेब्रुअरी", t!"मार्च", t!"अप्रिल", t!"मई", t!"जुन", t!"जुलै", t!"अगस्त", t!"सेप्टेम्बर", t!"अक्टुवर", t!"नभम्वर", t!"डिसम्वर"]
    abbreviated := [t!"जनवरी", t!"फेब्रुअरी", t!"मार्च", t!"अप्रिल", t!"मई", t!"जुन", t!"जुलै", t!"अगस्त", t!"सेप्तेम्बर", t!"अक्टुवर", t!"नभम्वर", t!"डिसम्वर"]
    short := [t!"जनवरी", t!"फेब्रुअरी", t!"मार्च", t!"अप्रिल", t!"मई", t!"जुन", t!"जुलै", t!"अग्सत", t!"सेप्तेम्बर", t!"अक्टुवर", t!"नभम्वर", t!"डिसम्वर"]
    days := [t!"आइतवार", t!"सोमवार", t!"मंगलवार", t!"बुधवार", t!"बिहीवार", t!"शुक्रवार", t!"शनिवार"]
    am := t!"a.m."
    pm := t!"p.m."
    bigAm := t!"AM"
    bigPm := t!"PM"
    midnight := t!"मध्यरात"
    noon := t!"मध्यान्ह" }
  pluralForms := c!"nplurals=2; plural=(n != 1);"
  forms := [[true, true]]

/-- /repo/humanize/locale/nl/locale.go:14-29; /repo/humanize/locale/nl/django.po (Plural-Forms: line 32). -/
def loc_nl : Shipped where
  dir := b!"nl"
  lang := b!"nl"
  format := some ⟨t!"j F Y", t!"H:i", t!"j F Y H:i", t!"F Y", t!"j F", t!"j-n-Y", t!"j-n-Y H:i", 1⟩
  texts := {
    months := [t!"januari", t!"februari", t!"maart", t!"april", t!"mei", t!"juni", t!"juli", t!"augustus", t!"september", t!"oktober", t!"november", t!"december"]
    alternative := [t!"januari", t!"februari", t!"maart", t!"april", t!"mei", t!"juni", t!"juli", t!"augustus", t!"september", t!"oktober", t!"november", t!"december"]
    abbreviated := [t!"jan", t!"feb", t!"mrt", t!"apr", t!"mei", t!"jun", t!"jul", t!"aug", t!"sep", t!"okt", t!"nov", t!"dec"]
    short := [t!"Jan", t!"Feb", t!"Mrt", t!"Apr", t!"Mei", t!"Jun", t!"Jul", t!"Aug", t!"Sep", t!"Okt", t!"Nov", t!"Dec"]
    days := [t!"zondag", t!"maandag", t!"dinsdag", t!"woensdag", t!"donderdag", t!"vrijdag", t!"zaterdag"]
    am := t!"a.m."
    pm := t!"p.m."
    bigAm := t!"AM"
    bigPm := t!"PM"
    midnight := t!"middernacht"
    noon := t!"middag" }
  pluralForms := c!"nplurals=2; plural=(n != 1);"
  forms := [[true, true]]

/-- /repo/humanize/locale/nn/locale.go:14-29; /repo/humanize/locale/nn/django.po (Plural-Forms: line 23). -/
def loc_nn : Shipped where
  dir := b!"nn"
  lang := b!"nn"
  format := some ⟨t!"j. F Y", t!"H:i", t!"j. F Y H:i", t!"F Y", t!"j. F", t!"d.m.Y", t!"d.m.Y H:i", 1⟩
  texts := {
    months := [t!"januar", t!"februar", t!"mars", t!"april", t!"mai", t!"juni", t!"juli", t!"august", t!"september", t!"oktober", t!"november", t!"desember"]
    alternative := [t!"Januar", t!"Februar", t!"Mars", t!"April", t!"Mai", t!"Juni", t!"Juli", t!"August", t!"September", t!"Oktober", t!"November", t!"Desember"]
    abbreviated := [t!"jan.", t!"feb.", t!"mars", t!"april", t!"mai", t!"juni", t!"juli", t!"aug.", t!"sep.", t!"okt.", t!"nov.", t!"des."]
    short := [t!"Jan", t!"Feb", t!"Mars", t!"April", t!"Mai", t!"Juni", t!"Juli", t!"Aug", t!"Sep", t!"Okt", t!"Nov", t!"Des"]
    days := [t!"søndag", t!"måndag", t!"tysdag", t!"onsdag", t!"torsdag", t!"fredag", t!"laurdag"]
    am := t!"a.m."
    pm := t!"p.m."
    bigAm := t!"AM"
    bigPm := t!"PM"
    midnight := t!"midnatt"
    noon := t!"12:00" }
  pluralForms := c!"nplurals=2; plural=(n != 1);"
  forms := [[true, true]]

/-- /repo/humanize/locale/os/locale.go:14-19; /repo/humanize/locale/os/django.po (Plural-Forms: line 18). -/
def loc_os : Shipped where
  dir := b!"os"
  lang := b!"os"
  format := none
  texts := {
    months := [t!"Январь", t!"Февраль", t!"Мартъи", t!"Апрель", t!"Май", t!"Июнь", t!"Июль", t!"Август", t!"Сентябрь", t!"Октябрь", t!"Ноябрь", t!"Декабрь"]
    alternative := [t!"Январь", t!"Февраль", t!"Мартъи", t!"Апрель", t!"Май", t!"Июнь", t!"Июль", t!"Август", t!"Сентябрь", t!"Октябрь", t!"Ноябрь", t!"Декабрь"]
    abbreviated := [t!"Янв.", t!"Фев.", t!"Мартъи", t!"Апрель", t!"Май", t!"Июнь", t!"Июль", t!"Авг.", t!"Сен.", t!"Окт.", t!"Ноя.", t!"Дек."]
    short := [t!"Янв", t!"Фев", t!"Мар", t!"Апр", t!"Май", t!"Июн", t!"Июл", t!"Авг", t!"Сен", t!"Окт", t!"Ноя", t!"Дек"]
    days := [t!"Хуыцаубон", t!"Къуырисӕр", t!"Дыццӕг", t!"Ӕртыццӕг", t!"Цыппӕрӕм", t!"Майрӕмбон", t!"Сабат"]
    am := t!"ӕ.р."
    pm := t!"ӕ.ф."
    bigAm := t!"ӔР"
    bigPm := t!"ӔФ"
    midnight := t!"ӕмбисӕхсӕв"
    noon := t!"ӕмбисбон" }
  pluralForms := c!"nplurals=2; plural=(n != 1);"
  forms := [[true, true]]

/-- /repo/humanize/locale/pa/locale.go:14-19; /repo/humanize/locale/pa/django.po (Plural-Forms: line 18). -/
def loc_pa : Shipped where
  dir := b!"pa"
  lang := b!"pa"
  format := none
  texts := {
    months := [t!"ਜਨਵਰੀ", t!"ਫਰਵਰੀ", t!"ਮਾਰਚ", t!"ਅਪਰੈਲ", t!"ਮਈ", t!"ਜੂਨ", t!"ਜੁਲਾਈ", t!"ਅਗਸਤ", t!"ਸਤੰਬਰ", t!"ਅਕਤੂਬਰ", t!"ਨਵੰਬਰ", t!"ਦਸੰਬਰ"]
    alternative := [t!"ਜਨਵਰੀ", t!"ਫਰਵਰੀ", t!"ਮਾਰਚ", t!"ਅਪਰੈਲ", t!"ਮਈ", t!"ਜੂਨ", t!"ਜੁਲਾਈ", t!"ਅਗਸਤ", t!"ਸਤੰਬਰ", t!"ਅਕਤੂਬਰ", t!"ਨਵੰਬਰ", t!"ਦਸੰਬਰ"]
    abbreviated := [t!"ਜਨ", t!"ਫਰ", t!"ਮਾਰ", t!"ਅਪ", t!"ਮਈ", t!"ਜੂਨ", t!"ਜੁਲ", t!"ਅਗ", t!"ਸਤੰ", t!"ਅਕਤੂ", t!"ਨਵੰ", t!"ਦਸੰ"]
    short := [t!"ਜਨ", t!"ਫਰ", t!"ਮਾਰ", t!"ਅਪ", t!"ਮਈ", t!"ਜੂਨ", t!"ਜੁਲ", t!"ਅਗ", t!"ਸਤੰ", t!"ਅਕ", t!"ਨਵੰ", t!"ਦਸੰ"]
    days := [t!"ਐਤਵਾਰ", t!"ਸੋਮਵਾਰ", t!"ਮੰਗਲਵਾਰ", t!"ਬੁੱਧਵਾਰ", t!"ਵੀਰਵਾਰ", t!"ਸ਼ੁੱਕਰਵਾਰ", t!"ਸ਼ਨਿੱਚਰਵਾਰ"]
    am := t!"a.m."
    pm := t!"p.m."
    bigAm := t!"ਸਵੇਰ"
    bigPm := t!"ਸ਼ਾਮ"
    midnight := t!"ਅੱਧੀ-ਰਾਤ"
    noon := t!"ਨੂਨ" }
  pluralForms := c!"nplurals=2; plural=(n != 1);"
  forms := [[true, true]]

/-- /repo/humanize/locale/pl/locale.go:14-29; /repo/humanize/locale/pl/django.po (Plural-Forms: line 44). -/
def loc_pl : Shipped where
  dir := b!"pl"
  lang := b!"pl"
  format := some ⟨t!"j E Y", t!"H:i", t!"j E Y H:i", t!"F Y", t!"j E", t!"d-m-Y", t!"d-m-Y  H:i", 1⟩
  texts := {
    months := [t!"Styczeń", t!"Luty", t!"Marzec", t!"Kwiecień", t!"Maj", t!"Czerwiec", t!"Lipiec", t!"Sierpień", t!"Wrzesień", t!"Październik", t!"Listopad", t!"Grudzień"]
    alternative := [t!"stycznia", t!"lutego", t!"marca", t!"kwietnia", t!"maja", t!"czerwca", t!"lipca", t!"sierpnia", t!"września", t!"października", t!"listopada", t!"grudnia"]
    abbreviated := [t!"Sty.", t!"Lut.", t!"Mar.", t!"Kwi.", t!"Maj", t!"Cze.", t!"Lip.", t!"Sie.", t!"Wrz.", t!"Paź.", t!"Lis.", t!"Gru"]
    short := [t!"Sty", t!"Lut", t!"Mar", t!"Kwi", t!"Maj", t!"Cze", t!"Lip", t!"Sie", t!"Wrz", t!"Paź", t!"Lis", t!"Gru"]
    days := [t!"Niedziela", t!"Poniedziałek", t!"Wtorek", t!"Środa", t!"Czwartek", t!"Piątek", t!"Sobota"]
    am := t!"rano"
    pm := t!"po południu"
    bigAm := t!"rano"
    bigPm := t!"po południu"
    midnight := t!"północ"
    noon := t!"południe" }
  pluralForms := c!"nplurals=4; plural=(n==1 ? 0 : (n%10>=2 && n%10<=4) && (n%100<12 || n%100>14) ? 1 : n!=1 && (n%10>=0 && n%10<=1) || (n%10>=5 && n%10<=9) || (n%100>=12 && n%100<=14) ? 2 : 3);"
  forms := [[true, true, true, true]]

/-- /repo/humanize/locale/pt/locale.go:14-29; /repo/humanize/locale/pt/django.po (Plural-Forms: line 26). -/
def loc_pt : Shipped where
  dir := b!"pt"
  lang := b!"pt"
  format := some ⟨t!"j \\d\\e F \\d\\e Y", t!"H:i", t!"j \\d\\e F \\d\\e Y à\\s H:i", t!"F \\d\\e Y", t!"j \\d\\e F", t!"d/m/Y", t!"d/m/Y H:i", 0⟩
  texts := {
    months := [t!"Janeiro", t!"Fevereiro", t!"Março", t!"Abril", t!"Maio", t!"Junho", t!"Julho", t!"Agosto", t!"Setembro", t!"Outubro", t!"Novembro", t!"Dezembro"]
    alternative := [t!"Janeiro", t!"Fevereiro", t!"Março", t!"Abril", t!"Maio", t!"Junho", t!"Julho", t!"Agosto", t!"Setembro", t!"Outubro", t!"Novembro", t!"Dezembro"]
    abbreviated := [t!"Jan.", t!"Fev.", t!"Março", t!"Abril", t!"Maio", t!"Jun.", t!"Jul.", t!"Ago.", t!"Set.", t!"Out.", t!"Nov.", t!"Dez."]
    short := [t!"Jan", t!"Fev", t!"Mar", t!"Abr", t!"Mai", t!"Jun", t!"Jul", t!"Ago", t!"Set", t!"Out", t!"Nov", t!"Dez"]
    days := [t!"Domingo", t!"Segunda-feira", t!"Terça-feira", t!"Quarta-feira", t!"Quinta-feira", t!"Sexta-feira", t!"Sábado"]
    am := t!"a.m."
    pm := t!"p.m."
    bigAm := t!"AM"
    bigPm := t!"PM"
    midnight := t!"meia-noite"
    noon := t!"meio-dia" }
  pluralForms := c!"nplurals=2; plural=(n != 1);"
  forms := [[true, true, true]]

/-- /repo/humanize/locale/ptBR/locale.go:14-29; /repo/humanize/locale/ptBR/django.po (Plural-Forms: line 55). -/
def loc_ptBR : Shipped where
  dir := b!"ptBR"
  lang := b!"pt-BR"
  format := some ⟨t!"j \\d\\e F \\d\\e Y", t!"H:i", t!"j \\d\\e F \\d\\e Y à\\s H:i", t!"F \\d\\e Y", t!"j \\d\\e F", t!"d/m/Y", t!"d/m/Y H:i", 0⟩
  texts := {
    months := [t!"Janeiro", t!"Fevereiro", t!"Março", t!"Abril", t!"Maio", t!"Junho", t!"Julho", t!"Agosto", t!"Setembro", t!"Outubro", t!"Novembro", t!"Dezembro"]
    alternative := [t!"Janeiro", t!"Fevereiro", t!"Março", t!"Abril", t!"Maio", t!"Junho", t!"Julho", t!"Agosto", t!"Setembro", t!"Outubro", t!"Novembro", t!"Dezembro"]
    abbreviated := [t!"Jan.", t!"Fev.", t!"Março", t!"Abril", t!"Maio", t!"Junho", t!"Julho", t!"Ago.", t!"Set.", t!"Out.", t!"Nov.", t!"Dez."]
    short := [t!"Jan", t!"Fev", t!"Mar", t!"Abr", t!"Mai", t!"Jun", t!"Jul", t!"Ago", t!"Set", t!"Out", t!"Nov", t!"Dez"]
    days := [t!"Domingo", t!"Segunda-feira", t!"Terça-feira", t!"Quarta-feira", t!"Quinta-feira", t!"Sexta-feira", t!"Sábado"]
    am := t!"a.m."
    pm := t!"p.m."
    bigAm := t!"AM"
    bigPm := t!"PM"
    midnight := t!"meia-noite"
    noon := t!"meio-dia" }
  pluralForms := c!"nplurals=2; plural=(n > 1);"
  forms := [[true, true, true]]

/-- /repo/humanize/locale/ro/locale.go:14-29; /repo/humanize/locale/ro/django.po (Plural-Forms: line 25). -/
def loc_ro : Shipped where
  dir := b!"ro"
  lang := b!"ro"
  format := some ⟨t!"j F Y", t!"H:i", t!"j F Y, H:i", t!"F Y", t!"j F", t!"d.m.Y", t!"d.m.Y, H:i", 1⟩
  texts := {
    months := [t!"Ianuarie", t!"Februarie", t!"Martie", t!"Aprilie", t!"Mai", t!"Iunie", t!"Iulie", t!"August", t!"Septembrie", t!"Octombrie", t!"Noiembrie", t!"Decembrie"]
    alternative := [t!"Ianuarie", t!"Februarie", t!"Martie", t!"Aprilie", t!"Mai", t!"Iunie", t!"Iulie", t!"August", t!"Septembrie", t!"Octombrie", t!"Noiembrie", t!"Decembrie"]
    abbreviated := [t!"Ian.", t!"Feb.", t!"Martie", t!"Aprilie", t!"Mai", t!"Iunie", t!"Iulie", t!"Aug.", t!"Sept.", t!"Oct.", t!"Noie.", t!"Dec."]
    short := [t!"Ian", t!"Feb", t!"Mar", t!"Apr", t!"Mai", t!"Iun", t!"Iul", t!"Aug", t!"Sep", t!"Oct", t!"Noi", t!"Dec"]
    days := [t!"Duminică", t!"Luni", t!"Marți", t!"Miercuri", t!"Joi", t!"Vineri", t!"Sâmbătă"]
    am := t!"a.m."
    pm := t!"p.m."
    bigAm := t!"AM"
    bigPm := t!"PM"
    midnight := t!"miezul nopții"
    noon := t!"amiază" }
  pluralForms := c!"nplurals=3; plural=(n==1?0:(((n%100>19)||((n%100==0)&&(n!=0)))?2:1));"
  forms := [[true, true, true]]

/-- /repo/humanize/locale/ru/locale.go:14-29; /repo/humanize/locale/ru/django.po (Plural-Forms: line 36). -/
def loc_ru : Shipped where
  dir := b!"ru"
  lang := b!"ru"
  format := some ⟨t!"j E Y г.", t!"G:i", t!"j E Y г. G:i", t!"F Y г.", t!"j F", t!"d.m.Y", t!"d.m.Y H:i", 1⟩
  texts := {
    months := [t!"Январь", t!"Февраль", t!"Март", t!"Апрель", t!"Май", t!"Июнь", t!"Июль", t!"Август", t!"Сентябрь", t!"Октябрь", t!"Ноябрь", t!"Декабрь"]
    alternative := [t!"января", t!"февраля", t!"марта", t!"апреля", t!"мая", t!"июня", t!"июля", t!"августа", t!"сентября", t!"октября", t!"ноября", t!"декабря"]
    abbreviated := [t!"Янв.", t!"Фев.", t!"Март", t!"Апрель", t!"Май", t!"Июнь", t!"Июль", t!"Авг.", t!"Сен.", t!"Окт.", t!"Ноя.", t!"Дек."]
    short := [t!"Янв", t!"Фев", t!"Мар", t!"Апр", t!"Май", t!"Июн", t!"Июл", t!"Авг", t!"Сен", t!"Окт", t!"Ноя", t!"Дек"]
    days := [t!"Воскресенье", t!"Понедельник", t!"Вторник", t!"Среда", t!"Четверг", t!"Пятница", t!"Суббота"]
    am := t!"д.п."
    pm := t!"п.п."
    bigAm := t!"ДП"
    bigPm := t!"ПП"
    midnight := t!"полночь"
    noon := t!"полдень" }
  pluralForms := c!"nplurals=4; plural=(n%10==1 && n%100!=11 ? 0 : n%10>=2 && n%10<=4 && (n%100<12 || n%100>14) ? 1 : n%10==0 || (n%10>=5 && n%10<=9) || (n%100>=11 && n%100<=14)? 2 : 3);"
  forms := [[true, true, true, true]]

/-- /repo/humanize/locale/sk/locale.go:14-29; /repo/humanize/locale/sk/django.po (Plural-Forms: line 25). -/
def loc_sk : Shipped where
  dir := b!"sk"
  lang := b!"sk"
  format := some ⟨t!"j. F Y", t!"G:i", t!"j. F Y G:i", t!"F Y", t!"j. F", t!"d.m.Y", t!"d.m.Y G:i", 1⟩
  texts := {
    months := [t!"január", t!"február", t!"marec", t!"apríl", t!"máj", t!"jún", t!"júl", t!"august", t!"september", t!"október", t!"november", t!"december"]
    alternative := [t!"január", t!"február", t!"marec", t!"apríl", t!"máj", t!"jún", t!"júl", t!"august", t!"september", t!"október", t!"november", t!"december"]
    abbreviated := [t!"jan.", t!"feb.", t!"mar.", t!"apr.", t!"máj", t!"jún", t!"júl", t!"aug.", t!"sep.", t!"okt.", t!"nov.", t!"dec."]
    short := [t!"Jan", t!"Feb", t!"Mar", t!"Apr", t!"Máj", t!"Jún", t!"Júl", t!"Aug", t!"Sep", t!"Okt", t!"Nov", t!"Dec"]
    days := [t!"nedeľa", t!"pondelok", t!"utorok", t!"streda", t!"štvrtok", t!"piatok", t!"sobota"]
    am := t!"predpoludním"
    pm := t!"popoludní"
    bigAm := t!"predpoludním"
    bigPm := t!"popoludní"
    midnight := t!"polnoc"
    noon := t!"poludnie" }
  pluralForms := c!"nplurals=4; plural=(n % 1 == 0 && n == 1 ? 0 : n % 1 == 0 && n >= 2 && n <= 4 ? 1 : n % 1 != 0 ? 2: 3);"
  forms := [[true, true, true, true]]

/-- /repo/humanize/locale/sl/locale.go:14-29; /repo/humanize/locale/sl/django.po (Plural-Forms: line 24). -/
def loc_sl : Shipped where
  dir := b!"sl"
  lang := b!"sl"
  format := some ⟨t!"d. F Y", t!"H:i", t!"j. F Y. H:i", t!"F Y", t!"j. F", t!"j. M. Y", t!"j.n.Y. H:i", 0⟩
  texts := {
    months := [t!"januar", t!"februar", t!"marec", t!"april", t!"maj", t!"junij", t!"julij", t!"avgust", t!"september", t!"oktober", t!"november", t!"december"]
    alternative := [t!"Januar", t!"Februar", t!"Marec", t!"April", t!"Maj", t!"Junij", t!"Julij", t!"Avgust", t!"September", t!"Oktober", t!"November", t!"December"]
    abbreviated := [t!"Jan", t!"Feb.", t!"Marec", t!"April", t!"Maj", t!"Junij", t!"Julij", t!"Avg.", t!"Sept.", t!"Okt.", t!"Nov.", t!"Dec."]
    short := [t!"Jan", t!"Feb", t!"Mar", t!"Apr", t!"Maj", t!"Jun", t!"Jul", t!"Avg", t!"Sep", t!"Okt", t!"Nov", t!"Dec"]
    days := [t!"nedelja", t!"ponedeljek", t!"torek", t!"sreda", t!"četrtek", t!"petek", t!"sobota"]
    am := t!"a.m."
    pm := t!"p.m."
    bigAm := t!"AM"
    bigPm := t!"PM"
    midnight := t!"polnoč"
    noon := t!"poldne" }
  pluralForms := c!"nplurals=4; plural=(n%100==1 ? 0 : n%100==2 ? 1 : n%100==3 || n%100==4 ? 2 : 3);"
  forms := [[true, true, true, true]]

/-- /repo/humanize/locale/sq/locale.go:14-26; /repo/humanize/locale/sq/django.po (Plural-Forms: line 20). -/
def loc_sq : Shipped where
  dir := b!"sq"
  lang := b!"sq"
  format := some ⟨t!"d F Y", t!"g.i.A", [], t!"F Y", t!"j F", t!"Y-m-d", [], 0⟩
  texts := {
    months := [t!"Janar", t!"Shkurt", t!"Mars", t!"Prill", t!"Maj", t!"Qershor", t!"Korrik", t!"Gusht", t!"Shtator", t!"Tetor", t!"Nëntor", t!"Dhjetor"]
    alternative := [t!"Janar", t!"Shkurt", t!"Mars", t!"Prill", t!"Maj", t!"Qershor", t!"Korrik", t!"Gusht", t!"Shtator", t!"Tetor", t!"Nëntor", t!"Dhjetor"]
    abbreviated := [t!"Jan.", t!"Shk.", t!"Mars", t!"Prill", t!"Maj", t!"Qershor", t!"Korrik", t!"Gus.", t!"Shta.", t!"Tet.", t!"Nën.", t!"Dhj."]
    short := [t!"Jan", t!"Shk", t!"Mar", t!"Pri", t!"Maj", t!"Qer", t!"Kor", t!"Gus", t!"Sht", t!"Tet", t!"Nën", t!"Dhj"]
    days := [t!"E dielë", t!"E hënë", t!"E martë", t!"E mërkurë", t!"E enjte", t!"E premte", t!"E shtunë"]
    am := t!"a.m."
    pm := t!"p.m."
    bigAm := t!"AM"
    bigPm := t!"PM"
    midnight := t!"mesnatë"
    noon := t!"mesditë" }
  pluralForms := c!"nplurals=2; plural=(n != 1);"
  forms := [[true, true]]

/-- /repo/humanize/locale/sr/locale.go:14-29; /repo/humanize/locale/sr/django.po (Plural-Forms: line 21). -/
def loc_sr : Shipped where
  dir := b!"sr"
  lang := b!"sr"
  format := some ⟨t!"j. F Y.", t!"H:i", t!"j. F Y. H:i", t!"F Y.", t!"j. F", t!"j.m.Y.", t!"j.m.Y. H:i", 1⟩
  texts := {
    months := [t!"јануар", t!"фебруар", t!"март", t!"април", t!"мај", t!"јун", t!"јул", t!"август", t!"септембар", t!"октобар", t!"новембар", t!"децембар"]
    alternative := [t!"Јануар", t!"Фебруар", t!"Март", t!"Април", t!"Мај", t!"Јун", t!"Јул", t!"Август", t!"Септембар", t!"Октобар", t!"Новембар", t!"Децембар"]
    abbreviated := [t!"Јан.", t!"Феб.", t!"Март", t!"Април", t!"Мај", t!"Јун", t!"Јул", t!"Авг.", t!"Септ.", t!"Окт.", t!"Нов.", t!"Дец."]
    short := [t!"Јан.", t!"Феб.", t!"Мар.", t!"Апр.", t!"Мај.", t!"Јун.", t!"Јул.", t!"Ауг.", t!"Сеп.", t!"Окт.", t!"Нов.", t!"Дец."]
    days := [t!"недеља", t!"понедељак", t!"уторак", t!"среда", t!"четвртак", t!"петак", t!"субота"]
    am := t!"пре п."
    pm := t!"по п."
    bigAm := t!"AM"
    bigPm := t!"PM"
    midnight := t!"поноћ"
    noon := t!"подне" }
  pluralForms := c!"nplurals=3; plural=(n%10==1 && n%100!=11 ? 0 : n%10>=2 && n%10<=4 && (n%100<10 || n%100>=20) ? 1 : 2);"
  forms := [[true, true, true]]

/-- /repo/humanize/locale/srLatn/locale.go:14-29; /repo/humanize/locale/srLatn/django.po (Plural-Forms: line 21). -/
def loc_srLatn : Shipped where
  dir := b!"srLatn"
  lang := b!"sr-Latn"
  format := some ⟨t!"j. F Y.", t!"H:i", t!"j. F Y. H:i", t!"F Y.", t!"j. F", t!"j.m.Y.", t!"j.m.Y. H:i", 1⟩
  texts := {
    months := [t!"januar", t!"februar", t!"mart", t!"april", t!"maj", t!"jun", t!"jul", t!"avgust", t!"septembar", t!"oktobar", t!"novembar", t!"decembar"]
    alternative := [t!"Januar", t!"Februar", t!"Mart", t!"April", t!"Maj", t!"Jun", t!"Jul", t!"Avgust", t!"Septembar", t!"Oktobar", t!"Novembar", t!"Decembar"]
    abbreviated := [t!"Jan.", t!"Feb.", t!"Mart", t!"April", t!"Maj", t!"Jun", t!"Jul", t!"Avg.", t!"Sept.", t!"Okt.", t!"Nov.", t!"Dec."]
    short := [t!"Jan.", t!"Feb.", t!"Mar.", t!"Apr.", t!"Maj.", t!"Jun.", t!"Jul.", t!"Aug.", t!"Sep.", t!"Okt.", t!"Nov.", t!"Dec."]
    days := [t!"nedelja", t!"ponedeljak", t!"utorak", t!"sreda", t!"četvrtak", t!"petak", t!"subota"]
    am := t!"pre p."
    pm := t!"po p."
    bigAm := t!"AM"
    bigPm := t!"PM"
    midnight := t!"ponoć"
    noon := t!"podne" }
  pluralForms := c!"nplurals=3; plural=(n%10==1 && n%100!=11 ? 0 : n%10>=2 && n%10<=4 && (n%100<10 || n%100>=20) ? 1 : 2);"
  forms := [[true, true, true]]

/-- /repo/humanize/locale/sv/locale.go:14-29; /repo/humanize/locale/sv/django.po (Plural-Forms: line 40). -/
def loc_sv : Shipped where
  dir := b!"sv"
  lang := b!"sv"
  format := some ⟨t!"j F Y", t!"H:i", t!"j F Y H:i", t!"F Y", t!"j F", t!"Y-m-d", t!"Y-m-d H:i", 1⟩
  texts := {
    months := [t!"januari", t!"februari", t!"mars", t!"april", t!"maj", t!"juni", t!"juli", t!"augusti", t!"september", t!"oktober", t!"november", t!"december"]
    alternative := [t!"januari", t!"februari", t!"mars", t!"april", t!"maj", t!"juni", t!"juli", t!"augusti", t!"september", t!"oktober", t!"november", t!"december"]
    abbreviated := [t!"jan", t!"feb", t!"mars", t!"april", t!"maj", t!"juni", t!"juli", t!"aug", t!"sep", t!"okt", t!"nov", t!"dec"]
    short := [t!"Jan", t!"Feb", t!"Mar", t!"Apr", t!"Maj", t!"Jun", t!"Jul", t!"Aug", t!"Sep", t!"Okt", t!"Nov", t!"Dec"]
    days := [t!"söndag", t!"måndag", t!"tisdag", t!"onsdag", t!"torsdag", t!"fredag", t!"lördag"]
    am := t!"f.m."
    pm := t!"e.m."
    bigAm := t!"EM"
    bigPm := t!"FM"
    midnight := t!"midnatt"
    noon := t!"middag" }
  pluralForms := c!"nplurals=2; plural=(n != 1);"
  forms := [[true, true]]

/-- /repo/humanize/locale/sw/locale.go:14-19; /repo/humanize/locale/sw/django.po (Plural-Forms: line 18). -/
def loc_sw : Shipped where
  dir := b!"sw"
  lang := b!"sw"
  format := none
  texts := {
    months := [t!"Januari", t!"Februari", t!"Machi", t!"Aprili", t!"Mei", t!"Juni", t!"Julai", t!"Agosti", t!"Septemba", t!"Oktoba", t!"Novemba", t!"Disemba"]
    alternative := [t!"Januari", t!"Februari", t!"Machi", t!"Aprili", t!"Mei", t!"Juni", t!"Julai", t!"Agosti", t!"Septemba", t!"Oktoba", t!"Novemba", t!"Disemba"]
    abbreviated := [t!"Jan.", t!"Feb.", t!"Machi", t!"Aprili", t!"Mei", t!"Juni", t!"Julai", t!"Ago.", t!"Sep.", t!"Okt.", t!"Nov.", t!"Dis."]
    short := [t!"Jan", t!"Feb", t!"Machi", t!"Apr", t!"Mei", t!"Juni", t!"Jul", t!"Ago", t!"Sep", t!"Okt", t!"Nov", t!"Dis"]
    days := [t!"Jumapili", t!"Jumatatu", t!"Jumanne", t!"Jumatano", t!"Alhamisi", t!"Ijumaa", t!"Jumamosi"]
    am := t!"a.m"
    pm := t!"p.m"
    bigAm := t!"AM"
    bigPm := t!"PM"
    midnight := t!"usiku wa manane"
    noon := t!"mchana" }
  pluralForms := c!"nplurals=2; plural=(n != 1);"
  forms := [[true, true]]

/-- /repo/humanize/locale/ta/locale.go:14-25; /repo/humanize/locale/ta/django.po (Plural-Forms: line 18). -/
def loc_ta : Shipped where
  dir := b!"ta"
  lang := b!"ta"
  format := some ⟨t!"j F, Y", t!"g:i A", [], [], t!"j F", t!"j M, Y", [], 0⟩
  texts := {
    months := [t!"ஜனவரி", t!"பிப்ரவரி", t!"மார்ச்", t!"ஏப்ரல்", t!"மே", t!"ஜூன்", t!"ஜூலை", t!"ஆகஸ்டு", t!"செப்டம்பர்", t!"அக்டோபர்", t!"நவம்பர்", t!"டிசம்பர்"]
    alternative := [t!"ஜனவரி", t!"பிப்ரவரி", t!"மார்ச்", t!"ஏப்ரல்", t!"மே", t!"ஜூன்", t!"ஜூலை", t!"ஆகஸ்டு", t!"செப்டம்பர்", t!"அக்டோபர்", t!"நவம்பர்", t!"டிசம்பர்"]
    abbreviated := [t!"Jan.", t!"Feb.", t!"மார்ச்", t!"ஏப்ரல்", t!"மே", t!"ஜூன்", t!"ஜூலை", t!"Aug.", t!"Sept.", t!"Oct.", t!"Nov.", t!"Dec."]
    short := [t!"ஜன", t!"பிப்", t!"மார்", t!"ஏப்", t!"மே", t!"ஜூன்", t!"ஜூலை", t!"ஆக", t!"செப்", t!"அக்", t!"நவ", t!"டிச"]
    days := [t!"ஞாயிறு", t!"திங்கள்", t!"செவ்வாய்", t!"புதன்", t!"வியாழன்", t!"வெள்ளி", t!"சனி"]
    am := t!"a.m."
    pm := t!"p.m."
    bigAm := t!"AM"
    bigPm := t!"PM"
    midnight := t!"midnight"
    noon := t!"noon" }
  pluralForms := c!"nplurals=2; plural=(n != 1);"
  forms := []

/-- /repo/humanize/locale/te/locale.go:14-25; /repo/humanize/locale/te/django.po (Plural-Forms: line 21). -/
def loc_te : Shipped where
  dir := b!"te"
  lang := b!"te"
  format := some ⟨t!"j F Y", t!"g:i A", [], [], t!"j F", t!"j M Y", [], 0⟩
  texts := {
    months := [t!"జనవరి", t!"ఫిబ్రవరి", t!"మార్చి", t!"ఎప్రిల్", t!"మే", t!"జూన్", t!"జులై", t!"ఆగష్టు", t!"సెప్టెంబర్", t!"అక్టోబర్", t!"నవంబర్", t!"డిసెంబర్"]
    alternative := [t!"జనవరి", t!"ఫిబ్రవరి", t!"మార్చి", t!"ఏప్రిల్", t!"మే", t!"జూన్", t!"జూలై", t!"ఆగస్ట్", t!"సెప్టెంబర్", t!"అక్టోబర్", t!"నవంబర్", t!"డిసెంబర్"]
    abbreviated := [t!"జన.", t!"ఫిబ్ర.", t!"మార్చి", t!"ఏప్రి.", t!"మే", t!"జూన్", t!"జూలై", t!"ఆగ.", t!"సెప్టెం.", t!"అక్టో.", t!"నవం.", t!"డిసెం."]
    short := [t!"జన", t!"ఫిబ్ర", t!"మార్చి", t!"ఎప్రి", t!"మే", t!"జూన్", t!"జూలై", t!"ఆగ", t!"సెప్టెం", t!"అక్టో", t!"నవం", t!"డిసెం"]
    days := [t!"ఆదివారం", t!"సోమవారం", t!"మంగళవారం", t!"బుధవారం", t!"గురువారం", t!"శుక్రవారం", t!"శనివారం"]
    am := t!"a.m."
    pm := t!"p.m."
    bigAm := t!"AM"
    bigPm := t!"PM"
    midnight := t!"అర్ధరాత్రి"
    noon := t!"మధ్యాహ్నం" }
  pluralForms := c!"nplurals=2; plural=(n != 1);"
  forms := [[true, true]]

/-- /repo/humanize/locale/tg/locale.go:14-29; /repo/humanize/locale/tg/django.po (Plural-Forms: line 20). -/
def loc_tg : Shipped where
  dir := b!"tg"
  lang := b!"tg"
  format := some ⟨t!"j E Y г.", t!"G:i", t!"j E Y г. G:i", t!"F Y г.", t!"j F", t!"d.m.Y", t!"d.m.Y H:i", 1⟩
  texts := {
    months := [t!"Январ", t!"Феврал", t!"Март", t!"Апрел", t!"Май", t!"Июн", t!"Июл", t!"Август", t!"Сентябр", t!"Октябр", t!"Ноябр", t!"Декабр"]
    alternative := [t!"январ", t!"феврал", t!"март", t!"апрел", t!"май", t!"июн", t!"июл", t!"август", t!"сентябр", t!"октябр", t!"ноябр", t!"декабр"]
    abbreviated := [t!"Янв.", t!"Фев.", t!"Март", t!"Апрел", t!"Май", t!"Июн", t!"Июл", t!"Авг.", t!"Сен.", t!"Окт.", t!"Ноя.", t!"Дек."]
    short := [t!"Янв", t!"Фев", t!"Мар", t!"Апр", t!"Май", t!"Июн", t!"Июл", t!"Авг", t!"Сен", t!"Окт", t!"Ноя", t!"Дек"]
    days := [t!"Якшанбе", t!"Душанбе", t!"Сешанбе", t!"Чоршанбе", t!"Панҷшанбе", t!"Ҷумъа", t!"Шанбе"]
    am := t!"н.р."
    pm := t!"н.ш."
    bigAm := t!"НР"
    bigPm := t!"НШ"
    midnight := t!"нимашабӣ"
    noon := t!"нисфирузӣ" }
  pluralForms := c!"nplurals=2; plural=(n != 1);"
  forms := []

/-- /repo/humanize/locale/th/locale.go:14-29; /repo/humanize/locale/th/django.po (Plural-Forms: line 24). -/
def loc_th : Shipped where
  dir := b!"th"
  lang := b!"th"
  format := some ⟨t!"j F Y", t!"G:i", t!"j F Y, G:i", t!"F Y", t!"j F", t!"j M Y", t!"j M Y, G:i", 0⟩
  texts := {
    months := [t!"มกราคม", t!"กุมภาพันธ์", t!"มีนาคม", t!"เมษายน", t!"พฤษภาคม", t!"มิถุนายน", t!"กรกฎาคม", t!"สิงหาคม", t!"กันยายน", t!"ตุลาคม", t!"พฤศจิกายน", t!"ธันวาคม"]
    alternative := [t!"มกราคม", t!"กุมภาพันธ์", t!"มีนาคม", t!"เมษายน", t!"พฤษภาคม", t!"มิถุนายน", t!"กรกฎาคม", t!"สิงหาคม", t!"กันยายน", t!"ตุลาคม", t!"พฤศจิกายน", t!"ธันวาคม"]
    abbreviated := [t!"ม.ค.", t!"ก.พ.", t!"มี.ค.", t!"เม.ย.", t!"พ.ค.", t!"มิ.ย.", t!"ก.ค.", t!"ส.ค.", t!"ก.ย.", t!"ต.ค.", t!"พ.ย.", t!"ธ.ค."]
    short := [t!"ม.ค.", t!"ก.พ.", t!"มี.ค.", t!"เม.ย.", t!"พ.ค.", t!"มิ.ย.", t!"ก.ค.", t!"ส.ค.", t!"ก.ย.", t!"ต.ค.", t!"พ.ย.", t!"ธ.ค."]
    days := [t!"อาทิตย์", t!"จันทร์", t!"อังคาร", t!"พุธ", t!"พฤหัสบดี", t!"ศุกร์", t!"เสาร์"]
    am := t!"a.m."
    pm := t!"p.m."
    bigAm := t!"AM"
    bigPm := t!"PM"
    midnight := t!"เที่ยงคืน"
    noon := t!"เที่ยงวัน" }
  pluralForms := c!"nplurals=1; plural=0;"
  forms := [[true, false]]

/-- /repo/humanize/locale/tk/locale.go:14-29; /repo/humanize/locale/tk/django.po (Plural-Forms: line 20). -/
def loc_tk : Shipped where
  dir := b!"tk"
  lang := b!"tk"
  format := some ⟨t!"j E Y г.", t!"G:i", t!"j E Y г. G:i", t!"F Y г.", t!"j F", t!"d.m.Y", t!"d.m.Y H:i", 1⟩
  texts := {
    months := [t!"Ýanwar", t!"Fewral", t!"Mart", t!"Aprel", t!"Maý", t!"Iýun", t!"Iýul", t!"Awgust", t!"Sentýabr", t!"Oktýabr", t!"Noýabr", t!"Dekabr"]
    alternative := [t!"Ýanwar", t!"Fewral", t!"Mart", t!"Aprel", t!"Maý", t!"Iýun", t!"Iýul", t!"Awgust", t!"Sentýabr", t!"Oktýabr", t!"Noýabr", t!"Dekabr"]
    abbreviated := [t!"Ýan.", t!"Few.", t!"Mart", t!"Aprel", t!"Maý", t!"Iýun", t!"Iýul", t!"Awg.", t!"Sent.", t!"Okt.", t!"Noý.", t!"Dek."]
    short := [t!"Ýan", t!"Few", t!"Mart", t!"Apr", t!"Maý", t!"Iýun", t!"Iýul", t!"Awg", t!"Sent", t!"Okt", t!"Noý", t!"Dek"]
    days := [t!"Ýekşenbe", t!"Duşenbe", t!"Sişenbe", t!"Çarşenbe", t!"Penşenbe", t!"Anna", t!"Şenbe"]
    am := t!"a.m"
    pm := t!"p.m"
    bigAm := t!"AM"
    bigPm := t!"PM"
    midnight := t!"ýary gije"
    noon := t!"günortan" }
  pluralForms := c!"nplurals=2; plural=(n != 1);"
  forms := [[true, true]]

/-- /repo/humanize/locale/tr/locale.go:14-29; /repo/humanize/locale/tr/django.po (Plural-Forms: line 28). -/
def loc_tr : Shipped where
  dir := b!"tr"
  lang := b!"tr"
  format := some ⟨t!"d F Y", t!"H:i", t!"d F Y H:i", t!"F Y", t!"d F", t!"d M Y", t!"d M Y H:i", 1⟩
  texts := {
    months := [t!"Ocak", t!"Şubat", t!"Mart", t!"Nisan", t!"Mayıs", t!"Haziran", t!"Temmuz", t!"Ağustos", t!"Eylül", t!"Ekim", t!"Kasım", t!"Aralık"]
    alternative := [t!"Ocak", t!"Şubat", t!"Mart", t!"Nisan", t!"Mayıs", t!"Haziran", t!"Temmuz", t!"Ağustos", t!"Eylül", t!"Ekim", t!"Kasım", t!"Aralık"]
    abbreviated := [t!"Oca.", t!"Şub.", t!"Mart", t!"Nisan", t!"Mayıs", t!"Haz.", t!"Tem.", t!"Ağu.", t!"Eyl.", t!"Eki.", t!"Kas.", t!"Ara."]
    short := [t!"Oca", t!"Şub", t!"Mar", t!"Nis", t!"May", t!"Haz", t!"Tem", t!"Ağu", t!"Eyl", t!"Eki", t!"Kas", t!"Ara"]
    days := [t!"Pazar", t!"Pazartesi", t!"Salı", t!"Çarşamba", t!"Perşembe", t!"Cuma", t!"Cumartesi"]
    am := t!"ö.ö."
    pm := t!"ö.s."
    bigAm := t!"ÖÖ"
    bigPm := t!"ÖS"
    midnight := t!"gece yarısı"
    noon := t!"öğlen" }
  pluralForms := c!"nplurals=2; plural=(n > 1);"
  forms := [[true, true]]

/-- /repo/humanize/locale/tt/locale.go:14-19; /repo/humanize/locale/tt/django.po (Plural-Forms: line 18). -/
def loc_tt : Shipped where
  dir := b!"tt"
  lang := b!"tt"
  format := none
  texts := {
    months := [t!"Гыйнвар", t!"Февраль", t!"Март", t!"Апрель", t!"Май", t!"Июнь", t!"Июль", t!"Август", t!"Сентябрь", t!"Октябрь", t!"Ноябрь", t!"Декабрь"]
    alternative := [t!"гыйнвар", t!"февраль", t!"март", t!"апрель", t!"май", t!"июнь", t!"июль", t!"август", t!"сентябрь", t!"октябрь", t!"ноябрь", t!"декабрь"]
    abbreviated := [t!"Гый.", t!"Фев.", t!"Март", t!"Апрель", t!"Май", t!"Июнь", t!"Июль", t!"Авг.", t!"Сен.", t!"Окт.", t!"Ноя.", t!"Дек."]
    short := [t!"Гый", t!"Фев", t!"Мар", t!"Апр", t!"Май", t!"Июн", t!"Июл", t!"Авг", t!"Сен", t!"Окт", t!"Ноя", t!"Дек"]
    days := [t!"Якшәмбе", t!"Дүшәмбе", t!"Сишәмбе", t!"Чәршәмбе", t!"Пәнҗешәмбе", t!"Җомга", t!"Шимбә"]
    am := t!"т.к."
    pm := t!"т.с."
    bigAm := t!"ТК"
    bigPm := t!"ТС"
    midnight := t!"төн уртасы"
    noon := t!"көн уртасы" }
  pluralForms := c!"nplurals=1; plural=0;"
  forms := [[true, false]]

/-- /repo/humanize/locale/udm/locale.go:14-19; /repo/humanize/locale/udm/django.po (Plural-Forms: line 16). -/
def loc_udm : Shipped where
  dir := b!"udm"
  lang := b!"udm"
  format := none
  texts := {
    months := [t!"толшор", t!"тулыспал", t!"южтолэзь", t!"оштолэзь", t!"куартолэзь", t!"инвожо", t!"пӧсьтолэзь", t!"гудырикошкон", t!"куарусён", t!"коньывуон", t!"шуркынмон", t!"толсур"]
    alternative := [t!"толшоре", t!"тулыспалэ", t!"южтолэзе", t!"оштолэзе", t!"куартолэзе", t!"инвожое", t!"пӧсьтолэзе", t!"гудырикошконэ", t!"куарусёнэ", t!"коньывуонэ", t!"шуркынмонэ", t!"толсуре"]
    abbreviated := [t!"тшт", t!"тпт", t!"южт", t!"ошт", t!"крт", t!"ивт", t!"пст", t!"гкт", t!"кут", t!"квт", t!"шкт", t!"тст"]
    short := [t!"Тшт", t!"Тпт", t!"Южт", t!"Ошт", t!"Крт", t!"Ивт", t!"Пст", t!"Гкт", t!"Кут", t!"Квт", t!"Шкт", t!"Тст"]
    days := [t!"Арнянунал", t!"Вордӥськон", t!"Пуксён", t!"Вирнунал", t!"Покчиарня", t!"Удмуртарня", t!"Кӧснунал"]
    am := t!"лымшор азе"
    pm := t!"лымшор бере"
    bigAm := t!"лымшор азе"
    bigPm := t!"лымшор бере"
    midnight := t!"уйшор"
    noon := t!"лымшор" }
  pluralForms := c!"nplurals=1; plural=0;"
  forms := [[true, false]]

/-- /repo/humanize/locale/ug/locale.go:14-29; /repo/humanize/locale/ug/django.po (Plural-Forms: line 22). -/
def loc_ug : Shipped where
  dir := b!"ug"
  lang := b!"ug"
  format := some ⟨t!"j F, Y", t!"G:i", [], t!"F Y", t!"j F", t!"Y/m/d", t!"Y/m/d G:i", 1⟩
  texts := {
    months := [t!"يانۋار", t!"فېۋرال", t!"مارت", t!"ئاپرىل", t!"ماي", t!"ئىيۇن", t!"ئىيۇل", t!"ئاۋغۇست", t!"سىنتەبىر", t!"ئۆكتەبىر", t!"نويابىر", t!"دىكابىر"]
    alternative := [t!"يانۋار", t!"فېۋرال", t!"مارت", t!"ئاپرىل", t!"ماي", t!"ئىيۇن", t!"ئىيۇل", t!"ئاۋغۇست", t!"سىنتەبىر", t!"ئۆكتەبىر", t!"نويابىر", t!"دىكابىر"]
    abbreviated := [t!"يانۋار", t!"فېۋرال", t!"مارت", t!"ئاپرىل", t!"ماي", t!"ئىيۇن", t!"ئىيۇل", t!"ئاۋغۇست", t!"سېنتەبىر", t!"ئۆكتەبىر", t!"نويابىر", t!"دىكابىر"]
    short := [t!"يان", t!"فېۋ", t!"مار", t!"ئاپ", t!"ماي", t!"ئ‍ىيۇن", t!"ئىيۇل", t!"ئاۋ", t!"سېن", t!"ئۆك", t!"نوي", t!"دىك"]
    days := [t!"يەكشەنبە", t!"دۈشەنبە", t!"سەيشەنبە", t!"چارشەمبە", t!"پەيشەمبە", t!"جۈمە", t!"شەنبە"]
    am := t!"a.m."
    pm := t!"p.m."
    bigAm := t!"AM"
    bigPm := t!"PM"
    midnight := t!"يېرىم كېچىدە"
    noon := t!"چۈشتە" }
  pluralForms := c!"nplurals=2; plural=(n != 1);"
  forms := [[true, true]]

/-- /repo/humanize/locale/uk/locale.go:14-29; /repo/humanize/locale/uk/django.po (Plural-Forms: line 33). -/
def loc_uk : Shipped where
  dir := b!"uk"
  lang := b!"uk"
  format := some ⟨t!"d E Y р.", t!"H:i", t!"d E Y р. H:i", t!"F Y", t!"d F", t!"d.m.Y", t!"d.m.Y H:i", 1⟩
  texts := {
    months := [t!"Січень", t!"Лютий", t!"Березень", t!"Квітень", t!"Травень", t!"Червень", t!"Липень", t!"Серпень", t!"Вересень", t!"Жовтень", t!"Листопад", t!"Грудень"]
    alternative := [t!"січня", t!"лютого", t!"березня", t!"квітня", t!"травня", t!"червня", t!"липня", t!"серпня", t!"вересня", t!"жовтня", t!"листопада", t!"грудня"]
    abbreviated := [t!"Січ.", t!"Лют.", t!"Березень", t!"Квітень", t!"Травень", t!"Червень", t!"Липень", t!"Сер.", t!"Вер.", t!"Жов.", t!"Лис.", t!"Гру."]
    short := [t!"Січ", t!"Лют", t!"Бер", t!"Кві", t!"Тра", t!"Чер", t!"Лип", t!"Сер", t!"Вер", t!"Жов", t!"Лис", t!"Гру"]
    days := [t!"Неділя", t!"Понеділок", t!"Вівторок", t!"Середа", t!"Четвер", t!"П'ятниця", t!"Субота"]
    am := t!"до полудня"
    pm := t!"після полудня"
    bigAm := t!"до полудня"
    bigPm := t!"після полудня"
    midnight := t!"північ"
    noon := t!"полудень" }
  pluralForms := c!"nplurals=4; plural=(n % 1 == 0 && n % 10 == 1 && n % 100 != 11 ? 0 : n % 1 == 0 && n % 10 >= 2 && n % 10 <= 4 && (n % 100 < 12 || n % 100 > 14) ? 1 : n % 1 == 0 && (n % 10 ==0 || (n % 10 >=5 && n % 10 <=9) || (n % 100 >=11 && n % 100 <=14 )) ? 2: 3);"
  forms := [[true, true, true, true]]

/-- /repo/humanize/locale/ur/locale.go:14-19; /repo/humanize/locale/ur/django.po (Plural-Forms: line 18). -/
def loc_ur : Shipped where
  dir := b!"ur"
  lang := b!"ur"
  format := none
  texts := {
    months := [t!"جنوری", t!"فروری", t!"مارچ", t!"اپریل", t!"مئی", t!"جون", t!"جولائی", t!"اگست", t!"ستمبر", t!"اکتوبر", t!"نومبر", t!"دسمبر"]
    alternative := [t!"جنوری", t!"فروری", t!"مارچ", t!"اپریل", t!"مئی", t!"جون", t!"جولائی", t!"اگست", t!"ستمبر", t!"اکتوبر", t!"نومبر", t!"دسمبر"]
    abbreviated := [t!"جنوری", t!"فروری", t!"مارچ", t!"اپریل", t!"مئی", t!"جون", t!"جولائی", t!"اگست", t!"ستمبر", t!"اکتوبر", t!"نومبر", t!"دسمبر"]
    short := [t!"جنوری", t!"فروری", t!"مارچ", t!"اپریل", t!"مئی", t!"جون", t!"جولائی", t!"اگست", t!"ستمبر", t!"اکتوبر", t!"نومبر", t!"دسمبر"]
    days := [t!"اتوار", t!"سوموار", t!"منگل", t!"بدھ", t!"جمعرات", t!"جمعہ", t!"ھفتہ"]
    am := t!"صبح"
    pm := t!"شام"
    bigAm := t!"صبح"
    bigPm := t!"شام"
    midnight := t!"نصف رات"
    noon := t!"دوپہر" }
  pluralForms := c!"nplurals=2; plural=(n != 1);"
  forms := [[true, true]]

/-- /repo/humanize/locale/uz/locale.go:14-29; /repo/humanize/locale/uz/django.po (Plural-Forms: line 21). -/
def loc_uz : Shipped where
  dir := b!"uz"
  lang := b!"uz"
  format := some ⟨t!"j-E, Y-\\y\\i\\l", t!"G:i", t!"j-E, Y-\\y\\i\\l G:i", t!"F Y-\\y\\i\\l", t!"j-E", t!"d.m.Y", t!"d.m.Y H:i", 1⟩
  texts := {
    months := [t!"Yanvar", t!"Fevral", t!"Mart", t!"Aprel", t!"May", t!"Iyun", t!"Iyul", t!"Avgust", t!"Sentabr", t!"Oktabr", t!"Noyabr", t!"Dekabr"]
    alternative := [t!"Yanvar", t!"Fevral", t!"Mart", t!"Aprel", t!"May", t!"Iyun", t!"Iyul", t!"Avgust", t!"Sentabr", t!"Oktabr", t!"Noyabr", t!"Dekabr"]
    abbreviated := [t!"Yan,", t!"Fev.", t!"Mart", t!"Aprel", t!"May", t!"Iyun", t!"Iyul", t!"Avg.", t!"Sen.", t!"Okt.", t!"Noy.", t!"Dek."]
    short := [t!"Yan", t!"Fev", t!"Mar", t!"Apr", t!"May", t!"Iyn", t!"Iyl", t!"Avg", t!"Sen", t!"Okt", t!"Noy", t!"Dek"]
    days := [t!"Yakshanba", t!"Dushanba", t!"Seshanba", t!"Chorshanba", t!"Payshanba", t!"Juma", t!"Shanba"]
    am := t!"ertalab"
    pm := t!"kechqurun"
    bigAm := t!"Ertalab"
    bigPm := t!"Kechqurun"
    midnight := t!"yarim tunda"
    noon := t!"peshin" }
  pluralForms := c!"nplurals=1; plural=0;"
  forms := [[true, false]]

/-- /repo/humanize/locale/vi/locale.go:14-28; /repo/humanize/locale/vi/django.po (Plural-Forms: line 24). -/
def loc_vi : Shipped where
  dir := b!"vi"
  lang := b!"vi"
  format := some ⟨t!"\\N\\gà\\y d \\t\\há\\n\\g n \\nă\\m Y", t!"H:i", t!":i \\N\\gà\\y d \\t\\há\\n\\g n \\nă\\m Y", t!"F Y", t!"j F", t!"d-m-Y", t!"H:i d-m-Y", 0⟩
  texts := {
    months := [t!"Tháng 1", t!"Tháng 2", t!"Tháng 3", t!"Tháng 4", t!"Tháng 5", t!"Tháng 6", t!"Tháng 7", t!"Tháng 8", t!"Tháng 9", t!"Tháng 10", t!"Tháng 11", t!"Tháng 12"]
    alternative := [t!"Tháng một", t!"Tháng hai", t!"Tháng ba", t!"Tháng tư", t!"Tháng năm", t!"Tháng sáu", t!"Tháng bảy", t!"Tháng tám", t!"Tháng Chín", t!"Tháng Mười", t!"Tháng mười một", t!"Tháng mười hai"]
    abbreviated := [t!"Tháng 1.", t!"Tháng 2.", t!"Tháng ba", t!"Tháng tư", t!"Tháng năm", t!"Tháng sáu", t!"Tháng bảy", t!"Tháng 8.", t!"Tháng 9.", t!"Tháng 10.", t!"Tháng 11.", t!"Tháng 12."]
    short := [t!"Tháng 1", t!"Tháng 2", t!"Tháng 3", t!"Tháng 4", t!"Tháng 5", t!"Tháng 6", t!"Tháng 7", t!"Tháng 8", t!"Tháng 9", t!"Tháng 10", t!"Tháng 11", t!"Tháng 12"]
    days := [t!"Chủ nhật", t!"Thứ 2", t!"Thứ 3", t!"Thứ 4", t!"Thứ 5", t!"Thứ 6", t!"Thứ 7"]
    am := t!"a.m."
    pm := t!"p.m."
    bigAm := t!"sáng"
    bigPm := t!"chiều"
    midnight := t!"Nửa đêm"
    noon := t!"Buổi trưa" }
  pluralForms := c!"nplurals=1; plural=0;"
  forms := [[true, false]]

/-- /repo/humanize/locale/zhHans/locale.go:14-29; /repo/humanize/locale/zhHans/django.po (Plural-Forms: line 54). -/
def loc_zhHans : Shipped where
  dir := b!"zhHans"
  lang := b!"zh-Hans"
  format := some ⟨t!"Y年n月j日", t!"H:i", t!"Y年n月j日 H:i", t!"Y年n月", t!"m月j日", t!"Y年n月j日", t!"Y年n月j日 H:i", 1⟩
  texts := {
    months := [t!"一月", t!"二月", t!"三月", t!"四月", t!"五月", t!"六月", t!"七月", t!"八月", t!"九月", t!"十月", t!"十一月", t!"十二月"]
    alternative := [t!"一月", t!"二月", t!"三月", t!"四月", t!"五月", t!"六月", t!"七月", t!"八月", t!"九月", t!"十月", t!"十一月", t!"十二月"]
    abbreviated := [t!"一月", t!"二月", t!"三月", t!"四月", t!"五月", t!"六月", t!"七月", t!"八月", t!"九月", t!"十月", t!"十一月", t!"十二月"]
    short := [t!"一月", t!"二月", t!"三月", t!"四月", t!"五月", t!"六月", t!"七月", t!"八月", t!"九月", t!"十月", t!"十一月", t!"十二月"]
    days := [t!"星期日", t!"星期一", t!"星期二", t!"星期三", t!"星期四", t!"星期五", t!"星期六"]
    am := t!"a.m."
    pm := t!"p.m."
    bigAm := t!"AM"
    bigPm := t!"PM"
    midnight := t!"午夜"
    noon := t!"中午" }
  pluralForms := c!"nplurals=1; plural=0;"
  forms := [[true, false]]

/-- /repo/humanize/locale/zhHant/locale.go:14-29; /repo/humanize/locale/zhHant/django.po (Plural-Forms: line 30). -/
def loc_zhHant : Shipped where
  dir := b!"zhHant"
  lang := b!"zh-Hant"
  format := some ⟨t!"Y年n月j日", t!"H:i", t!"Y年n月j日 H:i", t!"Y年n月", t!"m月j日", t!"Y年n月j日", t!"Y年n月j日 H:i", 1⟩
  texts := {
    months := [t!"一月", t!"二月", t!"三月", t!"四月", t!"五月", t!"六月", t!"七月", t!"八月", t!"九月", t!"十月", t!"十一月", t!"十二月"]
    alternative := [t!"一月", t!"二月", t!"三月", t!"四月", t!"五月", t!"六月", t!"七月", t!"八月", t!"九月", t!"十月", t!"十一月", t!"十二月"]
    abbreviated := [t!"一月", t!"二月", t!"三月", t!"四月", t!"五月", t!"六月", t!"七月", t!"八月", t!"九月", t!"十月", t!"十一月", t!"十二月"]
    short := [t!"一月", t!"二月", t!"三月", t!"四月", t!"五月", t!"六月", t!"七月", t!"八月", t!"九月", t!"十月", t!"十一月", t!"十二月"]
    days := [t!"星期日", t!"星期一", t!"星期二", t!"星期三", t!"星期四", t!"星期五", t!"星期六"]
    am := t!"a.m."
    pm := t!"p.m."
    bigAm := t!"AM"
    bigPm := t!"PM"
    midnight := t!"午夜"
    noon := t!"中午" }
  pluralForms := c!"nplurals=1; plural=0;"
  forms := [[true, false]]

/-- The directories of /repo/humanize/locale. -/
def shipped : List Shipped :=
  [loc_af, loc_ar, loc_arDZ, loc_ast, loc_az, loc_be, loc_bg, loc_bn, loc_br, loc_bs, loc_ca, loc_ckb, loc_cs,
   loc_cy, loc_da, loc_de, loc_dsb, loc_el, loc_enAU, loc_enGB, loc_eo, loc_es, loc_esAR, loc_esCO, loc_esMX,
   loc_esVE, loc_et, loc_eu, loc_fa, loc_fi, loc_fr, loc_fy, loc_ga, loc_gd, loc_gl, loc_he, loc_hi, loc_hr, loc_hsb,
   loc_hu, loc_hy, loc_ia, loc_id, loc_ig, loc_io, loc_is, loc_it, loc_ja, loc_ka, loc_kab, loc_kk, loc_km, loc_kn,
   loc_ko, loc_ky, loc_lb, loc_lt, loc_lv, loc_mk, loc_ml, loc_mn, loc_mr, loc_ms, loc_my, loc_nb, loc_ne, loc_nl,
   loc_nn, loc_os, loc_pa, loc_pl, loc_pt, loc_ptBR, loc_ro, loc_ru, loc_sk, loc_sl, loc_sq, loc_sr, loc_srLatn,
   loc_sv, loc_sw, loc_ta, loc_te, loc_tg, loc_th, loc_tk, loc_tr, loc_tt, loc_udm, loc_ug, loc_uk, loc_ur, loc_uz,
   loc_vi, loc_zhHans, loc_zhHant]

end Verif.Model.Humanize
